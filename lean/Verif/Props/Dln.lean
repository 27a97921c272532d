import Verif.Model.Dln
import Verif.Props.Commitments
import Verif.Lemmas.ModExp
import Mathlib.FieldTheory.Finite.Basic
import Mathlib.Data.Int.ModEq
/-! C42: the discrete-logarithm proof for ring-Pedersen bases (crypto/dlnproof). -/
namespace Tss.Dln
open Tss Common Commit

/-! ### Specification -/

namespace spec

/-- The elements the verifier refuses: 0 and 1 modulo N. -/
def NonTrivial (N z : Int) : Prop := 1 < z % N

/-- The verification equation of one iteration with challenge bit `b`. -/
def Eqn (h1 h2 N al t : Int) (b : Bool) : Prop :=
  h1 ^ t.toNat ≡ al * (if b then h2 else 1) [ZMOD N]

/-- The challenge: SHA-512/256 of h1, h2, N and all commitments (framed as in common/hash.go). -/
def chal (H : Bytes → Bytes) (h1 h2 N : Int) (alpha : List Int) : Nat :=
  beNat (H (frame ((h1 :: h2 :: N :: alpha).map intBytes)))

end spec

/-! ### Lemmas -/

instance (N z : Int) : Decidable (spec.NonTrivial N z) := inferInstanceAs (Decidable (1 < z % N))

instance (h1 h2 N al t : Int) (b : Bool) : Decidable (spec.Eqn h1 h2 N al t b) :=
  inferInstanceAs (Decidable (_ ≡ _ [ZMOD N]))

theorem allAboveOne_some (N : Int) (l : List Int) :
    allAboveOne N (l.map some) = .ok (decide (∀ t ∈ l, spec.NonTrivial N t)) := by
  induction l with
  | nil => simp [allAboveOne]
  | cons t r ih =>
    simp only [List.map_cons, allAboveOne]
    split
    · next h =>
      rw [ih]
      congr 1
      rw [decide_eq_decide, List.forall_mem_cons]
      exact ⟨fun g => ⟨h, g⟩, fun g => g.2⟩
    · next h => simp [spec.NonTrivial, h]

theorem allAboveOne_true {N : Int} {l : List (Option Int)} (h : allAboveOne N l = .ok true) :
    ∃ v : List Int, l = v.map some ∧ ∀ t ∈ v, spec.NonTrivial N t := by
  induction l with
  | nil => exact ⟨[], rfl, by simp⟩
  | cons o r ih =>
    cases o with
    | none => simp [allAboveOne] at h
    | some t =>
      simp only [allAboveOne] at h
      split at h
      · next ht =>
        obtain ⟨v, rfl, hv⟩ := ih h
        refine ⟨t :: v, rfl, ?_⟩
        intro x hx
        rcases List.mem_cons.mp hx with rfl | hx
        · exact ht
        · exact hv x hx
      · simp at h

theorem hash_some (H : Bytes → Bytes) (h1 h2 N : Int) (alpha : List Int) :
    SHA512_256i H (some h1 :: some h2 :: some N :: alpha.map some) = .ok (some (spec.chal H h1 h2 N alpha : Int)) := by
  have : (some h1 :: some h2 :: some N :: alpha.map some) = (h1 :: h2 :: N :: alpha).map some := rfl
  rw [this]
  unfold SHA512_256i
  rw [if_neg (by simp), bytesOfAll_some]
  rfl

theorem bit_cases (c i : Nat) : bit (c : Int) i = if c.testBit i then 1 else 0 := by
  unfold bit; simp

theorem bigExp_bit {h2 N : Int} (hN : 0 < N) (c i : Nat) :
    bigExp h2 (bit (c : Int) i) N = some ((if c.testBit i then h2 else 1) % N) := by
  rw [bit_cases]
  unfold bigExp
  rw [if_neg (by omega)]
  cases c.testBit i <;> simp

theorem bigExp_nonneg {x y N : Int} (hN : 0 < N) (hy : 0 ≤ y) : bigExp x y N = some (x ^ y.toNat % N) := by
  unfold bigExp
  rw [if_neg (by omega), if_neg (by omega)]

/-- The loop over the equations for proofs with non-negative responses. -/
theorem equations_iff {h1 h2 N : Int} (hN : 0 < N) (c : Nat) (as : List Int) : ∀ (ts : List Int) (i : Nat),
    as.length = ts.length → (∀ t ∈ ts, 0 ≤ t) →
    equations h1 h2 N (c : Int) i (as.map some) (ts.map some) =
      .ok (decide (∀ j, j < as.length → spec.Eqn h1 h2 N (as.getD j 0) (ts.getD j 0) (c.testBit (i + j)))) := by
  induction as with
  | nil => intro ts i _ _; simp [equations]
  | cons a r ih =>
    intro ts i hl ht
    cases ts with
    | nil => simp at hl
    | cons t ts =>
      simp only [List.map_cons, equations]
      rw [bigExp_nonneg hN (ht t (by simp)), bigExp_bit hN]
      simp only
      have key : (h1 ^ t.toNat % N = a * ((if c.testBit i then h2 else 1) % N) % N) ↔
          spec.Eqn h1 h2 N a t (c.testBit i) := by
        unfold spec.Eqn Int.ModEq
        rw [Int.mul_emod a ((if c.testBit i then h2 else 1) % N), Int.emod_emod, ← Int.mul_emod]
      by_cases h : h1 ^ t.toNat % N = a * ((if c.testBit i then h2 else 1) % N) % N
      · rw [if_pos h]
        rw [ih ts (i + 1) (by simpa using hl) fun x hx => ht x (by simp [hx])]
        congr 1
        rw [decide_eq_decide]
        constructor
        · intro H j hj
          cases j with
          | zero => simpa using key.mp h
          | succ j => simpa [Nat.add_assoc, Nat.add_comm 1 j] using H j (by simpa using hj)
        · intro H j hj
          simpa [Nat.add_assoc, Nat.add_comm 1 j] using H (j + 1) (by simpa using hj)
      · rw [if_neg h]
        symm
        congr 1
        rw [decide_eq_false_iff_not]
        intro H
        exact h (key.mpr (by simpa using H 0 (by simp)))

/-! ### The verifier -/

/-- C42. What acceptance means, exactly, for every proof with 128 non-nil commitments and 128 non-nil non-negative
responses (such as every unmarshalled proof has). -/
theorem C42_verify_iff (H : Bytes → Bytes) (h1 h2 N : Int) (al ts : List Int) (hl : al.length = Iterations)
    (hl' : ts.length = Iterations) (hpos : ∀ t ∈ ts, 0 ≤ t) :
    Verify H (some ⟨al.map some, ts.map some⟩) h1 h2 N = .ok true ↔
      0 < N ∧ spec.NonTrivial N h1 ∧ spec.NonTrivial N h2 ∧ h1 % N ≠ h2 % N ∧
      (∀ t ∈ ts, spec.NonTrivial N t) ∧ (∀ a ∈ al, spec.NonTrivial N a) ∧
      ∀ i, i < 128 → spec.Eqn h1 h2 N (al.getD i 0) (ts.getD i 0) ((spec.chal H h1 h2 N al).testBit i) := by
  unfold Verify
  simp only
  by_cases g1 : N ≤ 0
  · rw [if_pos g1]; simp; omega
  rw [if_neg g1]
  by_cases g2 : 1 < h1 % N
  swap
  · rw [if_pos g2]; simp [spec.NonTrivial, g2]
  rw [if_neg (not_not.mpr g2)]
  by_cases g3 : 1 < h2 % N
  swap
  · rw [if_pos g3]; simp [spec.NonTrivial, g3]
  rw [if_neg (not_not.mpr g3)]
  by_cases g4 : h1 % N = h2 % N
  · rw [if_pos g4]; simp [g4]
  rw [if_neg g4, allAboveOne_some, allAboveOne_some, hash_some]
  by_cases g5 : ∀ t ∈ ts, spec.NonTrivial N t
  swap
  · simp [g5]
  rw [decide_eq_true g5]
  by_cases g6 : ∀ t ∈ al, spec.NonTrivial N t
  swap
  · simp [g6]
  rw [decide_eq_true g6]
  simp only
  rw [equations_iff (by omega) _ _ _ _ (by rw [hl, hl']) hpos, hl]
  have e1 : spec.NonTrivial N h1 := g2
  have e2 : spec.NonTrivial N h2 := g3
  simp only [Res.ok.injEq, decide_eq_true_eq, Nat.zero_add]
  constructor
  · intro h; exact ⟨by omega, e1, e2, g4, g5, g6, h⟩
  · rintro ⟨-, -, -, -, -, -, h⟩; exact h

/-- C42. Completeness: if h2 = h1^x modulo N and the order of h1 divides p*q, an honest proof can always be made, its 128
equations hold whatever the hash, and it verifies unless one of the values is 0 or 1 modulo N (or h1 = h2). -/
theorem C42_complete (H : Bytes → Bytes) (h1 h2 x p q N : Int) (a : Nat → Int) (hN : 0 < N) (hpq : 0 < p * q) (hx : 0 ≤ x)
    (ha : ∀ i, 0 ≤ a i) (hord : h1 ^ (p * q).toNat ≡ 1 [ZMOD N]) (hh : h2 ≡ h1 ^ x.toNat [ZMOD N]) :
    ∃ al ts : List Int, NewDLNProof H h1 h2 x p q N a = .ok ⟨al.map some, ts.map some⟩ ∧ al.length = 128 ∧ ts.length = 128 ∧
      (∀ t ∈ ts, 0 ≤ t ∧ t < p * q) ∧ (∀ i, i < 128 → al.getD i 0 = h1 ^ (a i).toNat % N) ∧
      (∀ i, i < 128 → spec.Eqn h1 h2 N (al.getD i 0) (ts.getD i 0) ((spec.chal H h1 h2 N al).testBit i)) ∧
      (Verify H (some ⟨al.map some, ts.map some⟩) h1 h2 N = .ok true ↔
        spec.NonTrivial N h1 ∧ spec.NonTrivial N h2 ∧ h1 % N ≠ h2 % N ∧
        (∀ t ∈ ts, spec.NonTrivial N t) ∧ ∀ c ∈ al, spec.NonTrivial N c) := by
  let al : List Int := (List.range 128).map fun i => h1 ^ (a i).toNat % N
  let c := spec.chal H h1 h2 N al
  let t : Nat → Int := fun i => (a i + (bit (c : Int) i * x) % (p * q)) % (p * q)
  let ts : List Int := (List.range 128).map t
  have hal : (List.range Iterations).map (fun i => bigExp h1 (a i) N) = al.map some := by
    simp only [al, List.map_map, Iterations]
    apply List.map_congr_left
    intro i _
    exact bigExp_nonneg hN (ha i)
  have ht0 : ∀ i, 0 ≤ t i ∧ t i < p * q := fun i => ⟨Int.emod_nonneg _ (by omega), Int.emod_lt_of_pos _ hpq⟩
  have hts : ∀ y ∈ ts, 0 ≤ y ∧ y < p * q := by
    intro y hy
    obtain ⟨i, -, rfl⟩ := List.mem_map.mp hy
    exact ht0 i
  have hpow : ∀ k l : Nat, k ≡ l [MOD (p * q).toNat] → h1 ^ k ≡ h1 ^ l [ZMOD N] := by
    have aux : ∀ k : Nat, h1 ^ k ≡ h1 ^ (k % (p * q).toNat) [ZMOD N] := by
      intro k
      conv_lhs => rw [← Nat.div_add_mod k (p * q).toNat, pow_add, pow_mul]
      simpa using (hord.pow (k / (p * q).toNat)).mul_right (h1 ^ (k % (p * q).toNat))
    intro k l h
    have h' : k % (p * q).toNat = l % (p * q).toNat := h
    exact (aux k).trans (h' ▸ (aux l).symm)
  have heq : ∀ i, spec.Eqn h1 h2 N (h1 ^ (a i).toNat % N) (t i) (c.testBit i) := by
    intro i
    unfold spec.Eqn
    have e1 : ((t i).toNat : Int) ≡ a i + (if c.testBit i then x else 0) [ZMOD (p * q)] := by
      rw [Int.toNat_of_nonneg (ht0 i).1]
      show (a i + (bit (c : Int) i * x) % (p * q)) % (p * q) ≡ _ [ZMOD (p * q)]
      rw [bit_cases]
      refine (Int.mod_modEq _ _).trans (Int.ModEq.add_left _ ((Int.mod_modEq _ _).trans ?_))
      cases c.testBit i <;> simp
    have e2 : (t i).toNat ≡ (a i).toNat + (if c.testBit i then x.toNat else 0) [MOD (p * q).toNat] := by
      rw [← Int.natCast_modEq_iff]
      have hc : (((p * q).toNat : Nat) : Int) = p * q := Int.toNat_of_nonneg (by omega)
      rw [hc]
      refine e1.trans ?_
      have h1' := Int.toNat_of_nonneg (ha i)
      have h2' := Int.toNat_of_nonneg hx
      cases c.testBit i <;> simp [h1', h2']
    refine (hpow _ _ e2).trans ?_
    rw [pow_add]
    refine ((Int.mod_modEq _ _).symm).mul ?_
    cases c.testBit i
    · simp
    · simpa using hh.symm
  have hgal : ∀ i, i < 128 → al.getD i 0 = h1 ^ (a i).toNat % N := by
    intro i hi
    simp [al, List.getD_eq_getElem?_getD, hi]
  have hgts : ∀ i, i < 128 → ts.getD i 0 = t i := by
    intro i hi
    simp [ts, List.getD_eq_getElem?_getD, hi]
  have heq' : ∀ i, i < 128 → spec.Eqn h1 h2 N (al.getD i 0) (ts.getD i 0) ((spec.chal H h1 h2 N al).testBit i) := by
    intro i hi
    rw [hgal i hi, hgts i hi]
    exact heq i
  refine ⟨al, ts, ?_, by simp [al], by simp [ts], hts, hgal, heq', ?_⟩
  · unfold NewDLNProof
    rw [if_neg (by omega)]
    simp only [hal]
    rw [hash_some]
    simp only [ts, List.map_map, Iterations]
    rfl
  · rw [C42_verify_iff H h1 h2 N al ts (by simp [al, Iterations]) (by simp [ts, Iterations]) fun y hy => (hts y hy).1]
    constructor
    · rintro ⟨-, b1, b2, b3, b4, b5, -⟩; exact ⟨b1, b2, b3, b4, b5⟩
    · rintro ⟨b1, b2, b3, b4, b5⟩; exact ⟨hN, b1, b2, b3, b4, b5, heq'⟩

/-- C42 non-vacuity: N = 5*7, h1 = 4, h2 = 16 = h1^2, order dividing 2*3, all draws 2: accepted under every hash. -/
example (H : Bytes → Bytes) : ∃ pf, NewDLNProof H 4 16 2 2 3 35 (fun _ => 2) = .ok pf ∧ Verify H (some pf) 4 16 35 = .ok true := by
  obtain ⟨al, ts, e1, l1, l2, -, e3, -, e5⟩ := C42_complete H 4 16 2 2 3 35 (fun _ => 2) (by norm_num) (by norm_num) (by norm_num)
    (fun _ => by norm_num) (by decide) (by decide)
  refine ⟨_, e1, e5.mpr ⟨by decide, by decide, by decide, ?_, ?_⟩⟩
  · have hal : (List.range Iterations).map (fun _ => bigExp 4 2 35) = List.replicate 128 (some 16) := by decide +kernel
    unfold NewDLNProof at e1
    rw [if_neg (by norm_num)] at e1
    simp only [hal] at e1
    rw [show (List.replicate 128 (some (16 : Int))) = (List.replicate 128 16).map some by simp, hash_some] at e1
    simp only [Res.ok.injEq, Proof.mk.injEq] at e1
    intro t ht
    have : some t ∈ ts.map some := List.mem_map.mpr ⟨t, ht, rfl⟩
    rw [← e1.2, List.mem_map] at this
    obtain ⟨i, -, hi⟩ := this
    rw [bit_cases] at hi
    have := Option.some.inj hi
    subst this
    cases (spec.chal H 4 16 35 (List.replicate 128 16)).testBit i <;> decide
  · intro c hc
    obtain ⟨i, hi, rfl⟩ := List.mem_iff_getElem.mp hc
    have := e3 i (by omega)
    rw [List.getD_eq_getElem?_getD, List.getElem?_eq_getElem hi] at this
    simp only [Option.getD_some] at this
    rw [this]
    decide

/-- C42. The order hypothesis of completeness holds for the intended parameters: N a product of two different safe primes
2p+1, 2q+1 and h1 the square of a unit. -/
theorem C42_order (p q f : Nat) (hP : (2 * p + 1).Prime) (hQ : (2 * q + 1).Prime) (hne : p ≠ q)
    (hf : Int.gcd f (((2 * p + 1) * (2 * q + 1) : Nat) : Int) = 1) :
    ((f : Int) ^ 2) ^ ((p : Int) * (q : Int)).toNat ≡ 1 [ZMOD (((2 * p + 1) * (2 * q + 1) : Nat) : Int)] := by
  have hcop : Nat.Coprime (2 * p + 1) (2 * q + 1) := (Nat.coprime_primes hP hQ).mpr (by omega)
  have hf' : Nat.Coprime f ((2 * p + 1) * (2 * q + 1)) := by
    rwa [Int.gcd_natCast_natCast] at hf
  have e : ((p : Int) * (q : Int)).toNat = p * q := by
    rw [← Int.natCast_mul, Int.toNat_natCast]
  rw [e]
  have aux : ∀ (r s : Nat), (2 * r + 1).Prime → Nat.Coprime f (2 * r + 1) → ((f : Int) ^ 2) ^ (r * s) ≡ 1 [ZMOD ((2 * r + 1 : Nat) : Int)] := by
    intro r s hr hc
    have := (Int.ModEq.pow_card_sub_one_eq_one hr (Nat.isCoprime_iff_coprime.mpr hc : IsCoprime (f : Int) ((2 * r + 1 : Nat) : Int))).pow s
    rw [one_pow, ← pow_mul, Nat.add_sub_cancel] at this
    rw [← pow_mul, ← Nat.mul_assoc]
    exact this
  have h1 := aux p q hP (Nat.Coprime.coprime_mul_right_right hf')
  have h2 := aux q p hQ (Nat.Coprime.coprime_mul_left_right hf')
  rw [Nat.mul_comm q p] at h2
  rw [Nat.cast_mul]
  exact (Int.modEq_and_modEq_iff_modEq_mul (by rw [Int.natAbs_natCast, Int.natAbs_natCast]; exact hcop)).mp ⟨h1, h2⟩

/-- C42. Special soundness: two proofs with the same commitments, accepted under two hash functions (a rewound random
oracle) whose challenges differ in bit i, give a relation h1^t = h1^t' * h2 modulo N, so t - t' is the discrete logarithm
of h2 when h1 is invertible. -/
theorem C42_special_soundness (H H' : Bytes → Bytes) (h1 h2 N : Int) (al ts ts' : List Int)
    (hl : al.length = 128) (hl1 : ts.length = 128) (hl2 : ts'.length = 128) (hp : ∀ t ∈ ts, 0 ≤ t) (hp' : ∀ t ∈ ts', 0 ≤ t)
    (hv : Verify H (some ⟨al.map some, ts.map some⟩) h1 h2 N = .ok true)
    (hv' : Verify H' (some ⟨al.map some, ts'.map some⟩) h1 h2 N = .ok true)
    (i : Nat) (hi : i < 128) (hb : (spec.chal H h1 h2 N al).testBit i = true) (hb' : (spec.chal H' h1 h2 N al).testBit i = false) :
    h1 ^ (ts.getD i 0).toNat ≡ h1 ^ (ts'.getD i 0).toNat * h2 [ZMOD N] := by
  obtain ⟨-, -, -, -, -, -, e⟩ := (C42_verify_iff H h1 h2 N al ts hl hl1 hp).mp hv
  obtain ⟨-, -, -, -, -, -, e'⟩ := (C42_verify_iff H' h1 h2 N al ts' hl hl2 hp').mp hv'
  have a1 := e i hi
  have a2 := e' i hi
  rw [hb] at a1
  rw [hb'] at a2
  unfold spec.Eqn at a1 a2
  simp only [if_true, Bool.false_eq_true, if_false, mul_one] at a1 a2
  exact a1.trans (a2.symm.mul_right h2)

/-- C42. Refused outright: no proof, a non-positive modulus, a base that is 0 or 1 modulo N, equal bases. -/
theorem C42_refused (H : Bytes → Bytes) (pf : Option Proof) (h1 h2 N : Int)
    (h : pf = none ∨ N ≤ 0 ∨ h1 % N ≤ 1 ∨ h2 % N ≤ 1 ∨ h1 % N = h2 % N) : Verify H pf h1 h2 N = .ok false := by
  unfold Verify
  cases pf with
  | none => rfl
  | some p =>
    simp only
    split
    · rfl
    split
    · rfl
    split
    · rfl
    split
    · rfl
    · rcases h with h | h | h | h | h
      · cases h
      all_goals omega

/-- C42. A proof with a nil response crashes the verifier when the bases are acceptable (the check for nil comes later). -/
theorem C42_nil_response_crashes (H : Bytes → Bytes) (al r : List (Option Int)) (h1 h2 N : Int) (hN : 0 < N)
    (b1 : 1 < h1 % N) (b2 : 1 < h2 % N) (b3 : h1 % N ≠ h2 % N) : Verify H (some ⟨al, none :: r⟩) h1 h2 N = .panic := by
  unfold Verify
  simp only
  rw [if_neg (by omega), if_neg (not_not.mpr b1), if_neg (not_not.mpr b2), if_neg b3]
  rfl

/-! ### Serialization -/

/-- C42. Serialize then Unmarshal gives the proof back (integers non-negative). -/
theorem C42_serialize_round_trip (al ts : List Int) (hl : al.length = 128) (hl' : ts.length = 128)
    (hp : ∀ z ∈ al ++ ts, 0 ≤ z) :
    ∃ bzs, Serialize ⟨al.map some, ts.map some⟩ = .ok bzs ∧ UnmarshalDLNProof bzs = .ok ⟨al.map some, ts.map some⟩ := by
  have hlast : ts.map some ≠ [] := by
    intro e; have := congrArg List.length e; simp [hl'] at this
  obtain ⟨s, h1, h2⟩ := C46_round_trip [al.map some, ts.map some] (by simp) (by simp [hl, hl']) (ts.map some) rfl hlast
  have hs : s = Commit.spec.layout [al.map some, ts.map some] := by
    have := (C46_secrets [al.map some, ts.map some]).1 (by simp) (by simp [hl, hl'])
    rw [h1] at this
    exact Res.ok.inj this
  refine ⟨s.map fun z => match z with | none => [] | some v => intBytes v, ?_, ?_⟩
  · unfold Serialize
    simp only
    rw [h1]
    rfl
  · unfold UnmarshalDLNProof
    have key : (s.map fun z => match z with | none => ([] : Bytes) | some v => intBytes v).map (fun b => some (beNat b : Int)) = s := by
      rw [List.map_map]
      conv_rhs => rw [← List.map_id s]
      apply List.map_congr_left
      intro z hz
      have : ∃ v : Int, z = some v ∧ 0 ≤ v := by
        rw [hs] at hz
        simp only [Commit.spec.layout, List.append_nil, List.mem_cons, List.mem_append, List.mem_map] at hz
        rcases hz with rfl | ⟨v, hv, rfl⟩ | rfl | ⟨v, hv, rfl⟩
        · exact ⟨_, rfl, by omega⟩
        · exact ⟨_, rfl, hp v (by simp [hv])⟩
        · exact ⟨_, rfl, by omega⟩
        · exact ⟨_, rfl, hp v (by simp [hv])⟩
      obtain ⟨v, rfl, hv⟩ := this
      simp only [Function.comp, id]
      rw [beNat_intBytes]
      congr 1
      omega
    rw [key, h2]
    simp [hl, hl', Iterations, List.take_of_length_le]

/-- C42. What Unmarshal accepts: exactly two parts of at least 128 integers; elements beyond the 128th are dropped. -/
theorem C42_unmarshal_iff (bzs : List Bytes) (pf : Proof) :
    UnmarshalDLNProof bzs = .ok pf ↔
      ∃ a t, ParseSecrets (bzs.map fun b => some (beNat b : Int)) = .ok [a, t] ∧ 128 ≤ a.length ∧ 128 ≤ t.length ∧
        pf = ⟨a.take 128, t.take 128⟩ := by
  unfold UnmarshalDLNProof
  cases hp : ParseSecrets (bzs.map fun b => some (beNat b : Int)) with
  | err e => simp
  | panic => simp
  | ok l =>
    match l with
    | [] => simp
    | [_] => simp
    | [a, t] =>
      have hI : Iterations = 128 := rfl
      simp only
      by_cases g1 : a.length < Iterations
      · rw [if_pos g1]; simp; omega
      by_cases g2 : t.length < Iterations
      · rw [if_neg g1, if_pos g2]; simp; omega
      · rw [if_neg g1, if_neg g2]
        simp only [Res.ok.injEq, List.cons.injEq, and_true]
        constructor
        · rintro rfl; exact ⟨a, t, ⟨rfl, rfl⟩, by omega, by omega, rfl⟩
        · rintro ⟨a', t', ⟨rfl, rfl⟩, -, -, rfl⟩; rfl
    | _ :: _ :: _ :: _ => simp

end Tss.Dln
