import Verif.Lemmas.ModProof
import Verif.Lemmas.Common
import Mathlib.Data.List.Forall2
import Mathlib.Data.List.GetD
/-! C40, C41: the Paillier-Blum modulus proof (crypto/modproof). -/
namespace Tss.ModProof
open Tss Common

/-! ### Specification -/

namespace spec

/-- The number hashed for the next challenge: W, N and the earlier challenges, tagged with the session. -/
def chal (H : Bytes → Bytes) (session : Bytes) (w n : Int) (prev : List Int) : Nat :=
  beNat (H (H (frame [session]) ++ H (frame [session]) ++ frame ((w :: n :: prev).map intBytes)))

/-- `ys` are the 80 challenges. -/
def Challenges (H : Bytes → Bytes) (session : Bytes) (w n : Int) (ys : List Int) : Prop :=
  ys.length = 80 ∧ ∀ i, i < 80 → ys.getD i 0 = (chal H session w n (ys.take i) : Int) % n

/-- z is an N-th root of y modulo N. -/
def RootEq (n y z : Int) : Prop := z ^ n.toNat ≡ y [ZMOD n]

/-- x is a fourth root of (-1)^a w^b y modulo N. -/
def FourthEq (n w y x : Int) (a b : Bool) : Prop := x ^ 4 ≡ (-1) ^ a.toNat * w ^ b.toNat * y [ZMOD n]

/-- An integer with exactly 81 bits. -/
def Bits81 (a : Int) : Prop := 2 ^ 80 ≤ a.natAbs ∧ a.natAbs < 2 ^ 81

/-- A scheduling of the 160 goroutines: each delivers its message exactly once. -/
def Schedule (order : List Nat) : Prop := order.Perm (List.range 160)

end spec

/-! ### Challenges -/

/-- The challenge property for a prefix. -/
def Pref (H : Bytes → Bytes) (session : Bytes) (w n : Int) (ys : List Int) : Prop :=
  ∀ i, i < ys.length → ys.getD i 0 = (spec.chal H session w n (ys.take i) : Int) % n

theorem tagged_eq (H : Bytes → Bytes) (session : Bytes) (w n : Int) (ys : List Int) :
    SHA512_256i_TAGGED H session (some w :: some n :: ys.map some) = some (spec.chal H session w n ys : Int) := by
  have : (some w :: some n :: ys.map some) = (w :: n :: ys).map some := rfl
  rw [this]
  unfold SHA512_256i_TAGGED spec.chal
  rw [if_neg (by simp)]
  simp [SHA512_256, bytesOrZero, Function.comp_def]

theorem genY_spec (H : Bytes → Bytes) (session : Bytes) (w n : Int) (hn : n ≠ 0) : ∀ (k : Nat) (ys : List Int),
    Pref H session w n ys →
    ∃ ys', genY H session w n k ys = .ok ys' ∧ ys'.length = ys.length + k ∧ Pref H session w n ys' := by
  intro k
  induction k with
  | zero => intro ys h; exact ⟨ys, rfl, rfl, h⟩
  | succ k ih =>
    intro ys h
    simp only [genY]
    rw [tagged_eq]
    simp only [RejectionSample]
    rw [if_neg hn]
    simp only
    obtain ⟨ys', h1, h2, h3⟩ := ih (ys ++ [(spec.chal H session w n ys : Int) % n]) (by
      intro i hi
      rw [List.length_append, List.length_singleton] at hi
      rcases Nat.lt_or_ge i ys.length with g | g
      · rw [List.getD_append _ _ _ _ g, h i g, List.take_append_of_le_length (by omega)]
      · have : i = ys.length := by omega
        subst this
        rw [List.getD_append_right _ _ _ _ (by omega), List.take_append_of_le_length (by omega)]
        simp)
    exact ⟨ys', h1, by rw [h2]; simp; omega, h3⟩

theorem pref_unique {H : Bytes → Bytes} {session : Bytes} {w n : Int} {ys zs : List Int} (hl : ys.length = zs.length)
    (h1 : Pref H session w n ys) (h2 : Pref H session w n zs) : ys = zs := by
  have key : ∀ i, i ≤ ys.length → ys.take i = zs.take i := by
    intro i
    induction i with
    | zero => intro _; simp
    | succ i ih =>
      intro hi
      have e := ih (by omega)
      have a1 := h1 i (by omega)
      have a2 := h2 i (by omega)
      rw [e, ← a2] at a1
      rw [List.getD_eq_getElem _ _ (by omega : i < ys.length), List.getD_eq_getElem _ _ (by omega : i < zs.length)] at a1
      rw [List.take_succ_eq_append_getElem (by omega), List.take_succ_eq_append_getElem (by omega), e, a1]
  have := key ys.length (le_refl _)
  rw [List.take_length, hl, List.take_length] at this
  exact this

theorem challenges_iff {H : Bytes → Bytes} {session : Bytes} {w n : Int} {ys : List Int} :
    spec.Challenges H session w n ys ↔ ys.length = 80 ∧ Pref H session w n ys := by
  unfold spec.Challenges Pref
  constructor
  · intro ⟨h1, h2⟩; exact ⟨h1, fun i hi => h2 i (by omega)⟩
  · intro ⟨h1, h2⟩; exact ⟨h1, fun i hi => h2 i (by omega)⟩

theorem genY_eq {H : Bytes → Bytes} {session : Bytes} {w n : Int} (hn : n ≠ 0) {ys : List Int}
    (h : spec.Challenges H session w n ys) : genY H session w n Iterations [] = .ok ys := by
  obtain ⟨ys', h1, h2, h3⟩ := genY_spec H session w n hn Iterations [] (by intro i hi; simp at hi)
  have hc := challenges_iff.mp h
  have hI : Iterations = 80 := rfl
  rw [h1, pref_unique (by rw [h2, hc.1]; simp [hI]) h3 hc.2]

/-- The challenges exist (and are unique) for every non-zero modulus. -/
theorem C40_challenges (H : Bytes → Bytes) (session : Bytes) (w n : Int) (hn : n ≠ 0) :
    ∃! ys, spec.Challenges H session w n ys := by
  obtain ⟨ys, h1, h2, h3⟩ := genY_spec H session w n hn 80 [] (by intro i hi; simp at hi)
  refine ⟨ys, challenges_iff.mpr ⟨by rw [h2]; simp, h3⟩, ?_⟩
  intro zs hz
  have := challenges_iff.mp hz
  exact pref_unique (by rw [h2, this.1]; simp) this.2 h3

theorem chal_range {H : Bytes → Bytes} {session : Bytes} {w n : Int} (hn : 0 < n) {ys : List Int}
    (h : spec.Challenges H session w n ys) {y : Int} (hy : y ∈ ys) : 0 ≤ y ∧ y < n := by
  obtain ⟨i, hi, rfl⟩ := List.getElem_of_mem hy
  have := h.2 i (by have := h.1; omega)
  rw [List.getD_eq_getElem _ _ hi] at this
  rw [this]
  exact ⟨Int.emod_nonneg _ (by omega), Int.emod_lt_of_pos _ hn⟩

/-! ### Messages and schedules -/

theorem messages_length (n w a b : Int) : ∀ (ys : List Int) (xs zs : List (Option Int)) (i : Nat),
    xs.length = ys.length → zs.length = ys.length → (messages n w a b i ys xs zs).length = 2 * ys.length := by
  intro ys
  induction ys with
  | nil => intro xs zs i _ _; simp [messages]
  | cons y ys ih =>
    intro xs zs i h1 h2
    cases xs with
    | nil => simp at h1
    | cons x xs =>
      cases zs with
      | nil => simp at h2
      | cons z zs =>
        simp only [messages, List.length_cons]
        rw [ih xs zs (i + 1) (by simpa using h1) (by simpa using h2)]
        omega

theorem messages_all (n w a b : Int) : ∀ (ys : List Int) (xs zs : List (Option Int)) (i : Nat),
    xs.length = ys.length → zs.length = ys.length →
    ((∀ m ∈ messages n w a b i ys xs zs, m = true) ↔
      ∀ j, j < ys.length → rootCheck n (ys.getD j 0) (zs.getD j none) = true ∧
        fourthCheck n w (ys.getD j 0) (xs.getD j none) (bit a (i + j)) (bit b (i + j)) = true) := by
  intro ys
  induction ys with
  | nil => intro xs zs i _ _; simp [messages]
  | cons y ys ih =>
    intro xs zs i h1 h2
    cases xs with
    | nil => simp at h1
    | cons x xs =>
      cases zs with
      | nil => simp at h2
      | cons z zs =>
        simp only [messages, List.forall_mem_cons]
        rw [ih xs zs (i + 1) (by simpa using h1) (by simpa using h2)]
        constructor
        · intro ⟨g1, g2, g3⟩ j hj
          cases j with
          | zero => exact ⟨g1, g2⟩
          | succ j =>
            have := g3 j (by simpa using hj)
            rw [show i + (j + 1) = i + 1 + j by omega]
            exact this
        · intro g
          refine ⟨(g 0 (by simp)).1, (g 0 (by simp)).2, ?_⟩
          intro j hj
          have := g (j + 1) (by simpa using hj)
          rw [show i + (j + 1) = i + 1 + j by omega] at this
          exact this

theorem receive_iff (l : List Bool) : receive l = true ↔ ∀ m ∈ l, m = true := by
  induction l with
  | nil => simp [receive]
  | cons m r ih =>
    simp only [receive, List.forall_mem_cons]
    cases m
    · simp
    · simpa using ih

theorem receive_schedule {order : List Nat} (ho : spec.Schedule order) {ms : List Bool} (hl : ms.length = 160) :
    receive (order.map fun k => ms.getD k false) = true ↔ ∀ m ∈ ms, m = true := by
  rw [receive_iff]
  constructor
  · intro h m hm
    obtain ⟨i, hi, rfl⟩ := List.getElem_of_mem hm
    have := h (ms.getD i false) (List.mem_map.mpr ⟨i, ho.mem_iff.mpr (List.mem_range.mpr (by omega)), rfl⟩)
    rwa [List.getD_eq_getElem _ _ hi] at this
  · intro h m hm
    obtain ⟨k, hk, rfl⟩ := List.mem_map.mp hm
    have hk := List.mem_range.mp (ho.mem_iff.mp hk)
    rw [List.getD_eq_getElem _ _ (by omega : k < ms.length)]
    exact h _ (List.getElem_mem _)

theorem rootCheck_iff {n y z : Int} (hn : 0 < n) (hy : 0 ≤ y) (hy' : y < n) :
    rootCheck n y (some z) = true ↔ spec.RootEq n y z := by
  unfold rootCheck spec.RootEq bigExp Int.ModEq
  simp only
  rw [if_neg (by omega), if_neg (by omega), decide_eq_true_iff, Option.some_inj, Int.emod_eq_of_lt hy hy']

theorem fourthCheck_iff {n w y x : Int} (hn : 0 < n) (hy : 0 ≤ y) (hy' : y < n) (a b : Bool) :
    fourthCheck n w y (some x) a b = true ↔ spec.FourthEq n w y x a b := by
  unfold fourthCheck spec.FourthEq bigExp
  simp only
  rw [if_neg (by omega), if_neg (by omega), decide_eq_true_iff, Option.some_inj]
  have hr := twist_range (w := w) hn hy hy' a b
  have ht := twist_modEq n w y a b
  constructor
  · intro h
    refine Int.ModEq.trans ?_ ht
    unfold Int.ModEq
    rw [Int.emod_eq_of_lt hr.1 hr.2]; exact h
  · intro h
    have := h.trans ht.symm
    unfold Int.ModEq at this
    rw [Int.emod_eq_of_lt hr.1 hr.2] at this; exact this

theorem inRange_some (n : Int) (l : List Int) : inRange n (l.map some) = true ↔ ∀ v ∈ l, 0 < v ∧ v < n := by
  induction l with
  | nil => simp [inRange]
  | cons v r ih => simp only [List.map_cons, inRange, List.forall_mem_cons, Bool.and_eq_true, decide_eq_true_eq, ih]

theorem bits81_iff (a : Int) : bitLen a = Iterations + 1 ↔ spec.Bits81 a := by
  unfold bitLen spec.Bits81
  have hI : Iterations = 80 := rfl
  rw [hI]
  by_cases h : a.natAbs = 0
  · rw [if_pos h, h]; simp
  · rw [if_neg h, Nat.add_right_cancel_iff, Nat.log2_eq_iff h]

/-! ### The verifier -/

/-- C40. What acceptance means, exactly, for an odd modulus and every schedule. -/
theorem C40_verify_iff (H : Bytes → Bytes) (prime : Int → Bool) (session : Bytes) (n w a b : Int) (xs zs : List Int)
    (hx : xs.length = 80) (hz : zs.length = 80) (order : List Nat) (ho : spec.Schedule order) (hodd : n % 2 = 1)
    (ys : List Int) (hys : spec.Challenges H session w n ys) :
    Verify H prime session n (some ⟨some w, xs.map some, some a, some b, zs.map some⟩) order = .ok true ↔
      0 < w ∧ w < n ∧ jacobiSym w n.toNat ≠ 1 ∧ (∀ z ∈ zs, 0 < z ∧ z < n) ∧ (∀ x ∈ xs, 0 < x ∧ x < n) ∧
      spec.Bits81 a ∧ spec.Bits81 b ∧ prime n = false ∧
      ∀ i, i < 80 → spec.RootEq n (ys.getD i 0) (zs.getD i 0) ∧
        spec.FourthEq n w (ys.getD i 0) (xs.getD i 0) (bit a i) (bit b i) := by
  have hV : ValidateBasic ⟨some w, xs.map some, some a, some b, zs.map some⟩ = true := by
    simp [ValidateBasic]
  unfold Verify
  simp only
  rw [hV, if_neg (by simp)]
  have hq : isQuadraticResidue w n = .ok (decide ((if n < 0 ∧ w < 0 then -jacobiSym w n.natAbs else jacobiSym w n.natAbs) = 1)) := by
    unfold isQuadraticResidue jacobi
    rw [if_neg (by omega)]
    by_cases g : n < 0 ∧ w < 0
    · rw [if_pos g, if_pos g]
    · rw [if_neg g, if_neg g]
  rw [hq]
  by_cases g1 : 0 < w ∧ w < n
  swap
  · have : ¬ (0 < w ∧ w < n ∧ jacobiSym w n.toNat ≠ 1 ∧ (∀ z ∈ zs, 0 < z ∧ z < n) ∧ (∀ x ∈ xs, 0 < x ∧ x < n) ∧
      spec.Bits81 a ∧ spec.Bits81 b ∧ prime n = false ∧
      ∀ i, i < 80 → spec.RootEq n (ys.getD i 0) (zs.getD i 0) ∧
        spec.FourthEq n w (ys.getD i 0) (xs.getD i 0) (bit a i) (bit b i)) := fun h => g1 ⟨h.1, h.2.1⟩
    rw [iff_false_intro this]
    split
    · simp
    · rw [if_pos g1]; simp
    · simp
    · simp
  have hn : 0 < n := by omega
  have hJ : (if n < 0 ∧ w < 0 then -jacobiSym w n.natAbs else jacobiSym w n.natAbs) = jacobiSym w n.toNat := by
    rw [if_neg (by omega)]; congr 1; omega
  rw [hJ]
  by_cases g2 : jacobiSym w n.toNat = 1
  · simp [g2]
  rw [decide_eq_false g2]
  simp only
  rw [if_neg (not_not.mpr g1)]
  by_cases g3 : inRange n (zs.map some) = true
  swap
  · rw [if_pos g3]
    have := mt (inRange_some n zs).mpr g3
    exact ⟨fun h => absurd h (by simp), fun h => absurd h.2.2.2.1 this⟩
  rw [if_neg (not_not.mpr g3)]
  by_cases g4 : inRange n (xs.map some) = true
  swap
  · rw [if_pos g4]
    have := mt (inRange_some n xs).mpr g4
    exact ⟨fun h => absurd h (by simp), fun h => absurd h.2.2.2.2.1 this⟩
  rw [if_neg (not_not.mpr g4)]
  by_cases g5 : bitLen a = Iterations + 1
  swap
  · rw [if_pos g5]
    exact ⟨fun h => absurd h (by simp), fun h => absurd h.2.2.2.2.2.1 (mt (bits81_iff a).mpr g5)⟩
  rw [if_neg (not_not.mpr g5)]
  by_cases g6 : bitLen b = Iterations + 1
  swap
  · rw [if_pos g6]
    exact ⟨fun h => absurd h (by simp), fun h => absurd h.2.2.2.2.2.2.1 (mt (bits81_iff b).mpr g6)⟩
  rw [if_neg (not_not.mpr g6), genY_eq (by omega) hys]
  simp only
  by_cases g7 : prime n = true
  · rw [if_pos (Or.inr g7)]
    exact ⟨fun h => absurd h (by simp), fun h => absurd h.2.2.2.2.2.2.2.1 (by simp [g7])⟩
  rw [if_neg (by rintro (h | h); omega; exact g7 h), Res.ok.injEq]
  have hl := hys.1
  rw [receive_schedule ho (by rw [messages_length _ _ _ _ _ _ _ _ (by simp [hx, hl]) (by simp [hz, hl]), hl]),
    messages_all _ _ _ _ _ _ _ _ (by simp [hx, hl]) (by simp [hz, hl]), hl]
  have conv : ∀ j, j < 80 → ((rootCheck n (ys.getD j 0) ((zs.map some).getD j none) = true ∧
      fourthCheck n w (ys.getD j 0) ((xs.map some).getD j none) (bit a (0 + j)) (bit b (0 + j)) = true) ↔
      (spec.RootEq n (ys.getD j 0) (zs.getD j 0) ∧
        spec.FourthEq n w (ys.getD j 0) (xs.getD j 0) (bit a j) (bit b j))) := by
    intro j hj
    have e1 : (zs.map some).getD j none = some (zs.getD j 0) := by
      rw [List.getD_eq_getElem _ _ (by simp; omega), List.getD_eq_getElem _ _ (by omega)]; simp
    have e2 : (xs.map some).getD j none = some (xs.getD j 0) := by
      rw [List.getD_eq_getElem _ _ (by simp; omega), List.getD_eq_getElem _ _ (by omega)]; simp
    have hy := chal_range hn hys (y := ys.getD j 0) (by rw [List.getD_eq_getElem _ _ (by omega)]; exact List.getElem_mem _)
    rw [e1, e2, rootCheck_iff hn hy.1 hy.2, fourthCheck_iff hn hy.1 hy.2, Nat.zero_add]
  constructor
  · intro h
    exact ⟨g1.1, g1.2, g2, (inRange_some n zs).mp g3, (inRange_some n xs).mp g4, (bits81_iff a).mp g5,
      (bits81_iff b).mp g6, by simpa using g7, fun j hj => (conv j hj).mp (h j hj)⟩
  · intro h j hj
    exact (conv j hj).mpr (h.2.2.2.2.2.2.2.2 j hj)

/-- C40. The answer does not depend on the order in which the goroutines deliver, for any input whatever. -/
theorem C40_order_independent (H : Bytes → Bytes) (prime : Int → Bool) (session : Bytes) (n : Int) (pf : Option Proof)
    (hlen : ∀ p, pf = some p → p.X.length = 80 ∧ p.Z.length = 80)
    (o o' : List Nat) (ho : spec.Schedule o) (ho' : spec.Schedule o') :
    Verify H prime session n pf o = Verify H prime session n pf o' := by
  cases pf with
  | none => rfl
  | some p =>
    obtain ⟨hX, hZ⟩ := hlen p rfl
    unfold Verify
    simp only
    cases hW : p.W with
    | none => rfl
    | some w =>
      cases hA : p.A with
      | none => rfl
      | some a =>
        cases hB : p.B with
        | none => rfl
        | some b =>
          simp only
          by_cases hn : n = 0
          · subst hn; rfl
          obtain ⟨ys, hys, _⟩ := C40_challenges H session w n hn
          rw [genY_eq hn hys]
          simp only
          have hm := messages_length n w a b ys p.X p.Z 0 (by rw [hX, hys.1]) (by rw [hZ, hys.1])
          rw [hys.1] at hm
          have e : receive (o.map fun k => (messages n w a b 0 ys p.X p.Z).getD k false) =
              receive (o'.map fun k => (messages n w a b 0 ys p.X p.Z).getD k false) := by
            rw [Bool.eq_iff_iff, receive_schedule ho hm, receive_schedule ho' hm]
          rw [e]

/-- C40. An even modulus crashes the verifier as soon as the proof has no nil part (the evenness test comes after the
Jacobi symbol). -/
theorem C40_even_panics (H : Bytes → Bytes) (prime : Int → Bool) (session : Bytes) (n w a b : Int) (xs zs : List Int)
    (order : List Nat) (heven : n % 2 = 0) :
    Verify H prime session n (some ⟨some w, xs.map some, some a, some b, zs.map some⟩) order = .panic := by
  unfold Verify
  simp [ValidateBasic, isQuadraticResidue, jacobi, heven]

/-- C40. A nil proof or a proof with a nil part is refused, never a crash. -/
theorem C40_nil_refused (H : Bytes → Bytes) (prime : Int → Bool) (session : Bytes) (n : Int) (p : Proof)
    (order : List Nat) (h : p.W = none ∨ p.A = none ∨ p.B = none ∨ none ∈ p.X ∨ none ∈ p.Z) :
    Verify H prime session n none order = .ok false ∧ Verify H prime session n (some p) order = .ok false := by
  refine ⟨rfl, ?_⟩
  unfold Verify
  simp only
  rw [if_pos]
  intro hv
  simp only [ValidateBasic, Bool.and_eq_true, List.all_eq_true] at hv
  obtain ⟨⟨⟨⟨h1, h2⟩, h3⟩, h4⟩, h5⟩ := hv
  rcases h with h | h | h | h | h
  · simp [h] at h1
  · simp [h] at h3
  · simp [h] at h4
  · simpa using h2 _ h
  · simpa using h5 _ h

/-- C40. The verifier crashes in no other case: for an odd modulus it always answers. -/
theorem C40_odd_answers (H : Bytes → Bytes) (prime : Int → Bool) (session : Bytes) (n : Int) (pf : Option Proof)
    (order : List Nat) (hodd : n % 2 = 1) : ∃ b, Verify H prime session n pf order = .ok b := by
  cases pf with
  | none => exact ⟨_, rfl⟩
  | some p =>
    unfold Verify
    simp only
    split
    · exact ⟨_, rfl⟩
    · cases hW : p.W with
      | none => exact ⟨_, rfl⟩
      | some w =>
        cases hA : p.A with
        | none => exact ⟨_, rfl⟩
        | some a =>
          cases hB : p.B with
          | none => exact ⟨_, rfl⟩
          | some b =>
            simp only
            have hn : n ≠ 0 := by omega
            obtain ⟨ys, hys, _⟩ := C40_challenges H session w n hn
            rw [genY_eq hn hys]
            have hq : ∃ c, isQuadraticResidue w n = .ok c := by
              unfold isQuadraticResidue jacobi
              rw [if_neg (by omega)]
              by_cases g : n < 0 ∧ w < 0
              · rw [if_pos g]; exact ⟨_, rfl⟩
              · rw [if_neg g]; exact ⟨_, rfl⟩
            obtain ⟨c, hq⟩ := hq
            rw [hq]
            cases c
            · simp only
              repeat' split
              all_goals exact ⟨_, rfl⟩
            · exact ⟨_, rfl⟩

end Tss.ModProof
