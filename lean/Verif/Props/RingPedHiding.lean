import Verif.Props.RingPed
import Verif.Props.Dln
import Mathlib.Data.ZMod.Units
import Mathlib.Data.Fintype.Pi
import Mathlib.GroupTheory.OrderOfElement
/-
C108: the proof of ring-Pedersen parameters tells nothing about the exponent λ, for every hash function; and the responses of the
discrete-logarithm proof tell nothing about its exponent, for every challenge.
-/
namespace Tss.RingPed
open Tss Alice AlicePaillier

namespace spec

/-- One round of the honest prover for draw a: the commitment t^a and the response a + e·λ modulo φ, where e is the challenge bit of
the commitment. -/
def honest (bitf : Nat → Nat) (n t lambda euler a : Nat) : Nat × Nat := (t ^ a % n, (a + bitf (t ^ a % n) * lambda) % euler)

/-- One round made up from a response z and a guess b of the bit: the commitment t^z·s^(−b). -/
def guessed {n : Nat} (s t : (ZMod n)ˣ) (g : Nat × Nat) : Nat × Nat := (((t ^ g.1 * (s ^ g.2)⁻¹ : (ZMod n)ˣ) : ZMod n).val, g.1)

/-- The draws of m rounds, and the guesses of m rounds. -/
def draws (euler m : Nat) : Finset (Fin m → Nat) := Fintype.piFinset fun _ => Finset.range euler

/-- All guesses. -/
def guesses (euler m : Nat) : Finset (Fin m → Nat × Nat) := Fintype.piFinset fun _ => Finset.range euler ×ˢ Finset.range 2

end spec
open spec

/-- The guess that a draw corresponds to. -/
def guessOf (bitf : Nat → Nat) (n t lambda euler a : Nat) : Nat × Nat := ((a + bitf (t ^ a % n) * lambda) % euler, bitf (t ^ a % n))

theorem commitment_val {n t : Nat} [NeZero n] {ut : (ZMod n)ˣ} (ht : (ut : ZMod n) = t) (a : Nat) :
    ((ut ^ a : (ZMod n)ˣ) : ZMod n).val = t ^ a % n := by
  rw [Units.val_pow_eq_pow_val, ht, ← Nat.cast_pow, ZMod.val_natCast]

theorem guess_commitment {n lambda euler : Nat} {us ut : (ZMod n)ˣ} (hs : us = ut ^ lambda) (hord : ut ^ euler = 1) {a b z : Nat}
    (hz : (a + b * lambda) % euler = z % euler) : ut ^ z * (us ^ b)⁻¹ = ut ^ a := by
  have h1 : ut ^ z = ut ^ (a + b * lambda) := by
    have red : ∀ x : Nat, ut ^ x = ut ^ (x % euler) := by
      intro x
      conv_lhs => rw [← Nat.mod_add_div x euler, pow_add, pow_mul, hord, one_pow, mul_one]
    rw [red z, ← hz, ← red]
  rw [h1, hs, pow_add, ← pow_mul, mul_comm b lambda, mul_inv_cancel_right]

theorem guessed_eq {n t lambda euler : Nat} [NeZero n] {us ut : (ZMod n)ˣ} (ht : (ut : ZMod n) = t) (hs : us = ut ^ lambda)
    (hord : ut ^ euler = 1) (bitf : Nat → Nat) (a : Nat) :
    guessed us ut (guessOf bitf n t lambda euler a) = honest bitf n t lambda euler a := by
  unfold guessed guessOf honest
  simp only
  rw [guess_commitment hs hord (a := a) (Nat.mod_mod _ _).symm, commitment_val ht]

open Classical in
/-- C108: for every function giving the challenge bits (so for every hash function, salt and session), every number of rounds and every
set T of transcripts: exactly as many draws of the prover lead to a transcript in T as there are guesses that turn out right for every
round and whose made-up transcript is in T.  Making up uses n, s and t only. -/
theorem C108_transcripts {n t lambda euler : Nat} [NeZero n] (us ut : (ZMod n)ˣ) (ht : (ut : ZMod n) = t) (hs : us = ut ^ lambda)
    (hord : ut ^ euler = 1) (he : 0 < euler) (bitf : Nat → Nat) (hbit : ∀ x, bitf x < 2) (m : Nat) (T : Set (Fin m → Nat × Nat)) :
    ((draws euler m).filter fun a => (fun j => honest bitf n t lambda euler (a j)) ∈ T).card =
      ((guesses euler m).filter fun g => (∀ j, bitf (guessed us ut (g j)).1 = (g j).2) ∧ (fun j => guessed us ut (g j)) ∈ T).card := by
  have hg := fun a => guessed_eq (lambda := lambda) ht hs hord bitf a
  refine Finset.card_bij (fun a _ j => guessOf bitf n t lambda euler (a j)) ?_ ?_ ?_
  · intro a ha
    rw [Finset.mem_filter] at ha ⊢
    have ha1 := Fintype.mem_piFinset.mp ha.1
    refine ⟨Fintype.mem_piFinset.mpr fun j => ?_, fun j => ?_, ?_⟩
    · exact Finset.mk_mem_product (Finset.mem_range.mpr (Nat.mod_lt _ he)) (Finset.mem_range.mpr (hbit _))
    · rw [hg]; rfl
    · simp only [hg]; exact ha.2
  · intro a ha a' ha' h
    have ha1 := Fintype.mem_piFinset.mp (Finset.mem_filter.mp ha).1
    have ha2 := Fintype.mem_piFinset.mp (Finset.mem_filter.mp ha').1
    funext j
    have hj := congrFun h j
    unfold guessOf at hj
    rw [Prod.mk.injEq] at hj
    obtain ⟨h1, h2⟩ := hj
    rw [← h2] at h1
    have h3 : a j ≡ a' j [MOD euler] := Nat.ModEq.add_right_cancel' _ h1
    have l1 := Finset.mem_range.mp (ha1 j)
    have l2 := Finset.mem_range.mp (ha2 j)
    exact Nat.ModEq.eq_of_lt_of_lt h3 l1 l2
  · intro g hgm
    rw [Finset.mem_filter] at hgm
    have hg1 := Fintype.mem_piFinset.mp hgm.1
    have key : ∀ j, ∃ a, a < euler ∧ guessOf bitf n t lambda euler a = g j := by
      intro j
      have hm := Finset.mem_product.mp (hg1 j)
      have hz := Finset.mem_range.mp hm.1
      refine ⟨((g j).1 + euler * ((g j).2 * lambda) - (g j).2 * lambda) % euler, Nat.mod_lt _ he, ?_⟩
      generalize ha : ((g j).1 + euler * ((g j).2 * lambda) - (g j).2 * lambda) % euler = a
      have hle : (g j).2 * lambda ≤ euler * ((g j).2 * lambda) := Nat.le_mul_of_pos_left _ he
      have hmod : (a + (g j).2 * lambda) % euler = (g j).1 % euler := by
        rw [← ha, Nat.mod_add_mod, Nat.sub_add_cancel (by omega), Nat.add_mul_mod_self_left]
      have hc : ut ^ (g j).1 * (us ^ (g j).2)⁻¹ = ut ^ a := guess_commitment hs hord hmod
      have hA : t ^ a % n = (guessed us ut (g j)).1 := by
        unfold guessed
        rw [hc, commitment_val ht]
      unfold guessOf
      rw [hA, hgm.2.1 j, hmod, Nat.mod_eq_of_lt hz]
    choose a ha1 ha2 using key
    refine ⟨a, ?_, funext ha2⟩
    rw [Finset.mem_filter]
    refine ⟨Fintype.mem_piFinset.mpr fun j => Finset.mem_range.mpr (ha1 j), ?_⟩
    have : (fun j => honest bitf n t lambda euler (a j)) = fun j => guessed us ut (g j) := by
      funext j; rw [← hg, ha2]
    rw [this]
    exact hgm.2.2

open Classical in
/-- C108: exactly half of the guesses of a round turn out right, so making up a message takes two tries a round on average. -/
theorem C108_half {n t lambda euler : Nat} [NeZero n] (us ut : (ZMod n)ˣ) (ht : (ut : ZMod n) = t) (hs : us = ut ^ lambda)
    (hord : ut ^ euler = 1) (he : 0 < euler) (bitf : Nat → Nat) (hbit : ∀ x, bitf x < 2) :
    2 * ((guesses euler 1).filter fun g => ∀ j, bitf (guessed us ut (g j)).1 = (g j).2).card = (guesses euler 1).card := by
  have h := C108_transcripts us ut ht hs hord he bitf hbit 1 Set.univ
  simp only [Set.mem_univ, and_true, Finset.filter_true] at h
  rw [← h]
  unfold draws guesses
  rw [Fintype.card_piFinset, Fintype.card_piFinset]
  simp [Finset.card_product, mul_comm]

/-- C108: what a successful proof creation returns: after the salt, the draws are taken from the reader one after the other by RandomInt
(uniform below φ, C89) and every round is the honest one for its draw. -/
theorem C108_message (Hb : Bytes → Bytes) (ssid : Bytes) (euler n s t lambda : Nat) (hn : 0 < n) (number : Int) (tape rest : Bytes) (msg : Msg)
    (h : New Hb ssid euler n s t lambda number tape = .ok (msg, rest)) :
    ∃ (tapes : Nat → Bytes) (a : Nat → Nat), tape = msg.salt ++ tapes 0 ∧ msg.salt.length = 128 ∧ tapes number.toNat = rest ∧
      msg.A.length = number.toNat ∧ msg.Z.length = number.toNat ∧
      ∀ j, j < number.toNat → RandomInt euler (tapes j) = .ok ((a j : Int), tapes (j + 1)) ∧ a j < euler ∧
        (beNat (msg.A.getD j []), beNat (msg.Z.getD j [])) =
          honest (fun x => bit Hb msg.salt ssid n s t (natBE x)) n t lambda euler (a j) := by
  have loop : ∀ (salt : Bytes) (k : Nat) (tape rest : Bytes) (l : List (Bytes × Bytes)),
      newLoop Hb ssid euler n s t lambda salt k tape = .ok (l, rest) →
      ∃ (tapes : Nat → Bytes) (a : Nat → Nat), tapes 0 = tape ∧ tapes k = rest ∧ l.length = k ∧
        ∀ j, j < k → RandomInt euler (tapes j) = .ok ((a j : Int), tapes (j + 1)) ∧ a j < euler ∧
          (beNat (l.getD j ([], [])).1, beNat (l.getD j ([], [])).2) =
            honest (fun x => bit Hb salt ssid n s t (natBE x)) n t lambda euler (a j) := by
    intro salt k
    induction k with
    | zero =>
      intro tape rest l h
      simp only [newLoop, Res.ok.injEq, Prod.mk.injEq] at h
      obtain ⟨rfl, rfl⟩ := h
      exact ⟨fun _ => tape, fun _ => 0, rfl, rfl, rfl, fun j hj => absurd hj (by omega)⟩
    | succ k ih =>
      intro tape rest l h
      simp only [newLoop] at h
      rw [Res.bind_eq_ok] at h
      obtain ⟨⟨ai, rest1⟩, h1, h⟩ := h
      rw [lift_ok] at h1
      obtain ⟨a0, a1⟩ := RandomInt_range h1
      simp only at h
      rw [bigExp_mod (by omega) a0] at h
      simp only [deref, Res.bind_ok] at h
      rw [Res.bind_eq_ok] at h
      obtain ⟨⟨l', rest'⟩, h2, h⟩ := h
      simp only [Res.ok.injEq, Prod.mk.injEq] at h
      obtain ⟨rfl, rfl⟩ := h
      obtain ⟨tapes, as, t0, tk, hl, hj⟩ := ih _ _ _ h2
      obtain ⟨b, rfl⟩ := Int.eq_ofNat_of_zero_le a0
      refine ⟨fun j => if j = 0 then tape else tapes (j - 1), fun j => if j = 0 then b else as (j - 1), rfl, ?_, by simp [hl], ?_⟩
      · simp only [Nat.add_sub_cancel]; rw [if_neg (by omega)]; exact tk
      · intro j hjk
        cases j with
        | zero =>
          simp only [if_true, Nat.zero_add, Nat.one_ne_zero, if_false, Nat.sub_self, t0]
          refine ⟨h1, by omega, ?_⟩
          simp only [List.getD_cons_zero, Int.toNat_natCast]
          have eA : (t : Int) ^ b % n = ((t ^ b % n : ℕ) : Int) := by push_cast; rfl
          have eI : ∀ x : Nat, intBytes (x : Int) = natBE x := fun x => by unfold intBytes; simp
          rw [eA, chal_eq, eI]
          unfold honest
          have eZ : ((b : Int) + (bit Hb salt ssid n s t (natBE (t ^ b % n)) : ℕ) * lambda) % euler =
              (((b + bit Hb salt ssid n s t (natBE (t ^ b % n)) * lambda) % euler : ℕ) : Int) := by push_cast; rfl
          rw [eZ, eI, beNat_natBE, beNat_natBE]
        | succ j =>
          simp only [Nat.succ_ne_zero, if_false, Nat.add_sub_cancel, List.getD_cons_succ]
          exact hj j (by omega)
  unfold New at h
  split at h
  · simp at h
  rw [Res.bind_eq_ok] at h
  obtain ⟨⟨salt, r1⟩, h1, h⟩ := h
  rw [Res.bind_eq_ok] at h
  obtain ⟨⟨l, r2⟩, h2, h⟩ := h
  simp only [Res.ok.injEq, Prod.mk.injEq] at h
  obtain ⟨rfl, rfl⟩ := h
  obtain ⟨tapes, a, t0, tk, hl, hj⟩ := loop _ _ _ _ _ h2
  rw [lift_ok] at h1
  unfold GenRandomBytes at h1
  rw [if_neg (by omega)] at h1
  have hread : Common.readFull 128 tape = some (salt, r1) := by
    change (match Common.readFull 128 tape with | some r => Res.ok r | none => .err AErr.reader) = _ at h1
    revert h1
    cases Common.readFull 128 tape with
    | none => intro h1; cases h1
    | some r => intro h1; exact congrArg some (Res.ok.inj h1)
  unfold Common.readFull at hread
  split at hread
  · cases hread
  · next hlen =>
    injection hread with hread
    injection hread with e1 e2
    refine ⟨tapes, a, ?_, ?_, tk, by simp [hl], by simp [hl], fun j hjn => ?_⟩
    · simp only
      rw [t0, ← e1, ← e2, List.take_append_drop]
    · simp only
      rw [← e1, List.length_take]; omega
    · obtain ⟨q1, q2, q3⟩ := hj j hjn
      refine ⟨q1, q2, ?_⟩
      rw [← q3]
      simp only
      rw [List.getD_eq_getElem _ _ (by simp [hl, hjn]), List.getD_eq_getElem _ _ (by simp [hl, hjn]),
        List.getD_eq_getElem _ _ (by simp [hl, hjn])]
      simp

open Classical in
/-- C108: the same for a given challenge in each round, as in an interactive proof and in the discrete-logarithm proof, whose bits come
from one hash of all commitments. -/
theorem C108_given_challenge {n t lambda euler : Nat} [NeZero n] (us ut : (ZMod n)ˣ) (ht : (ut : ZMod n) = t) (hs : us = ut ^ lambda)
    (hord : ut ^ euler = 1) (he : 0 < euler) (m : Nat) (b : Fin m → Nat) (T : Set (Fin m → Nat × Nat)) :
    ((draws euler m).filter fun a => (fun j => honest (fun _ => b j) n t lambda euler (a j)) ∈ T).card =
      ((draws euler m).filter fun z => (fun j => guessed us ut (z j, b j)) ∈ T).card := by
  have hg : ∀ j a, guessed us ut ((a + b j * lambda) % euler, b j) = honest (fun _ => b j) n t lambda euler a :=
    fun j a => guessed_eq (lambda := lambda) ht hs hord (fun _ => b j) a
  refine Finset.card_bij (fun a _ j => (a j + b j * lambda) % euler) ?_ ?_ ?_
  · intro a ha
    rw [Finset.mem_filter] at ha ⊢
    refine ⟨Fintype.mem_piFinset.mpr fun j => Finset.mem_range.mpr (Nat.mod_lt _ he), ?_⟩
    simp only [hg]; exact ha.2
  · intro a ha a' ha' h
    have ha1 := Fintype.mem_piFinset.mp (Finset.mem_filter.mp ha).1
    have ha2 := Fintype.mem_piFinset.mp (Finset.mem_filter.mp ha').1
    funext j
    have h3 : a j ≡ a' j [MOD euler] := Nat.ModEq.add_right_cancel' _ (congrFun h j)
    exact Nat.ModEq.eq_of_lt_of_lt h3 (Finset.mem_range.mp (ha1 j)) (Finset.mem_range.mp (ha2 j))
  · intro z hz
    rw [Finset.mem_filter] at hz
    have hz1 := Fintype.mem_piFinset.mp hz.1
    have key : ∀ j, ∃ a, a < euler ∧ (a + b j * lambda) % euler = z j := by
      intro j
      refine ⟨(z j + euler * (b j * lambda) - b j * lambda) % euler, Nat.mod_lt _ he, ?_⟩
      have hle : b j * lambda ≤ euler * (b j * lambda) := Nat.le_mul_of_pos_left _ he
      rw [Nat.mod_add_mod, Nat.sub_add_cancel (by omega), Nat.add_mul_mod_self_left, Nat.mod_eq_of_lt (Finset.mem_range.mp (hz1 j))]
    choose a ha1 ha2 using key
    refine ⟨a, ?_, funext ha2⟩
    rw [Finset.mem_filter]
    refine ⟨Fintype.mem_piFinset.mpr fun j => Finset.mem_range.mpr (ha1 j), ?_⟩
    have : (fun j => honest (fun _ => b j) n t lambda euler (a j)) = fun j => guessed us ut (z j, b j) := by
      funext j; rw [← hg, ha2]
    rw [this]
    exact hz.2

/-- C108: what a made-up round shows is accepted by the verifier's equation. -/
theorem C108_made_up_accepted {n : Nat} [NeZero n] (us ut : (ZMod n)ˣ) (z b : Nat) :
    ((ut : ZMod n)) ^ (guessed us ut (z, b)).2 = (us : ZMod n) ^ b * ((guessed us ut (z, b)).1 : ZMod n) := by
  unfold guessed
  simp only [ZMod.natCast_zmod_val]
  rw [← Units.val_pow_eq_pow_val, ← Units.val_pow_eq_pow_val, ← Units.val_mul, mul_comm (us ^ b), inv_mul_cancel_right]

/-- C108: a discrete-logarithm proof (crypto/dlnproof) consists of such rounds, with the bits of one challenge and draws below p·q. -/
theorem C108_dln_message (H : Bytes → Bytes) (h1 h2 x p q N : Nat) (hN : 0 < N) (a : Nat → Nat) (pf : Dln.Proof)
    (h : Dln.NewDLNProof H h1 h2 x p q N (fun i => (a i : Int)) = .ok pf) :
    ∃ b : Nat → Nat, (∀ i, b i < 2) ∧ pf.Alpha = (List.range 128).map (fun i => some (((honest (fun _ => b i) N h1 x (p * q) (a i)).1 : Nat) : Int)) ∧
      pf.T = (List.range 128).map (fun i => some (((honest (fun _ => b i) N h1 x (p * q) (a i)).2 : Nat) : Int)) := by
  unfold Dln.NewDLNProof at h
  split at h
  · cases h
  simp only at h
  split at h
  · next c hc =>
    simp only [Res.ok.injEq] at h
    subst h
    refine ⟨fun i => if c.natAbs.testBit i then 1 else 0, fun i => by dsimp only; split <;> omega, ?_, ?_⟩
    · refine List.map_congr_left fun i _ => ?_
      rw [Dln.bigExp_nonneg (by omega) (by omega)]
      simp [honest]
    · refine List.map_congr_left fun i _ => ?_
      unfold honest Dln.bit
      simp only [Option.some.injEq]
      push_cast
      rw [Int.add_emod_emod]
  · cases h

/-- Concrete: n = 35, t = 9 of order 6, s = t² = 11, φ = 24; and a message with ten rounds. -/
example : ∃ (us ut : (ZMod 35)ˣ), (ut : ZMod 35) = (9 : Nat) ∧ us = ut ^ 2 ∧ ut ^ 24 = 1 ∧
    honest (fun x => x % 2) 35 9 2 24 1 = (9, 3) ∧ guessed us ut (3, 1) = (9, 3) := by
  refine ⟨ZMod.unitOfCoprime 11 (by decide), ZMod.unitOfCoprime 9 (by decide), rfl, ?_, ?_, ?_, ?_⟩
  · ext; decide +kernel
  · ext; decide +kernel
  · decide +kernel
  · have : (ZMod.unitOfCoprime 9 (by decide) ^ 3 * (ZMod.unitOfCoprime 11 (by decide) ^ 1)⁻¹ : (ZMod 35)ˣ) = ZMod.unitOfCoprime 9 (by decide) := by
      rw [mul_inv_eq_iff_eq_mul]; ext; decide +kernel
    unfold guessed
    rw [this]
    rfl

end Tss.RingPed
