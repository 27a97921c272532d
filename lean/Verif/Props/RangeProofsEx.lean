import Verif.Props.RangeProofs
import Verif.Lemmas.Ed25519Enc
/-
C35–C39 on edwards25519, and concrete cases meeting the hypotheses.
-/
namespace Tss.RangeProofs
open Tss Text Alice

/-- C38 on edwards25519: the theorem's assumptions about the curve hold for the curve the code uses. -/
theorem C38_log_complete_ed25519 (Hb : Bytes → Bytes) (ssid : Bytes) (x rho C : ℤ) (n N : ℕ) (s t : ℤ) (d : Draws)
    (hn : 0 < n) (hN : 0 < N)
    (hs : Int.gcd s N = 1) (ht : Int.gcd t N = 1) (hrho : Int.gcd rho n = 1) (hr : Int.gcd d.r n = 1)
    (hC : (C : ZMod (n * n)) = pw (1 + (n : ZMod (n * n))) x * (rho : ZMod (n * n)) ^ n) :
    let cfg := NewProofConfig Ed.curve.N
    let G : ECPoint := ⟨Ed.curve.Gx, Ed.curve.Gy⟩
    let X := Ed.lawful.pt (x • Ed.lawful.base)
    NewKnowExponent Hb Ed.curve cfg ssid x rho C n ((N : ℤ), s, t) X G d = .err .exceedMaxRetry ∨
    ∃ m e, NewKnowExponent Hb Ed.curve cfg ssid x rho C n ((N : ℤ), s, t) X G d = .ok m ∧
      -cfg.curveN ≤ e ∧ e ≤ cfg.curveN ∧ parseBig 10 m.z1 = some (d.alpha + e * x) ∧
      m.verify Hb Ed.curve cfg ssid C n ((N : ℤ), s, t) X G =
        if |d.alpha + e * x| ≤ 2 * 2 ^ cfg.lAddEpsilon then .ok () else .err .z1Range := by
  intro cfg G X
  have hGv : Ed.lawful.val G = Ed.lawful.base := Ed.lawful.base_eq
  refine C38_log_complete Ed.lawful ?_ Hb cfg rfl ssid x rho C n N s t X G (Ed.lawful.on_pt _) Ed.lawful.base_onCurve
    ?_ ?_ d hn hN hs ht hrho hr hC
  · intro g
    exact ⟨Int.natCast_nonneg _, Int.natCast_nonneg _⟩
  · rw [hGv]; exact Ed.lawful.N_base
  · rw [hGv]; exact Ed.lawful.val_pt _

/-- C39 on edwards25519: a point and its negation have the same y-coordinate, so the proof for `X` and the
proof for `-X` are the same message, although the statements differ whenever `X` is not of order two. -/
theorem C39_log_negation (Hb : Bytes → Bytes) (cfg : ProofConfig) (ssid : Bytes) (x rho C n : ℤ) (ped : Ped)
    (g : Ed.Point) (G : ECPoint) (d : Draws) :
    NewKnowExponent Hb Ed.curve cfg ssid x rho C n ped (Ed.lawful.pt g) G d =
      NewKnowExponent Hb Ed.curve cfg ssid x rho C n ped (Ed.lawful.pt (-g)) G d ∧
    (Ed.lawful.pt g = Ed.lawful.pt (-g) → 2 • g = 0) := by
  constructor
  · exact C39_log_ignores_x Hb Ed.curve cfg ssid x rho C n ped _ _ G rfl d
  · intro h
    rw [Ed.lawful.pt_inj] at h
    rw [two_smul]
    nth_rewrite 2 [h]
    exact add_neg_cancel g

/-! ### Concrete cases (Paillier modulus 15, ring-Pedersen parameters (35, 4, 9), group Z/11 × Z/8) -/

/-- A hash function with a chosen first byte. -/
def hb (b : UInt8) : Bytes → Bytes := fun _ => b :: List.replicate 31 0

/-- Draws with a chosen mask. -/
def draws0 (a : Int) : Draws := ⟨a, 5, 2, 7, fun _ => [1, 2]⟩

/-- An encryption of 3 with randomness 2. -/
def ct0 : Int := (16 ^ 3 * 2 ^ 15) % 225

/-- The encryption-range proof message of these inputs. -/
def runEnc (b : UInt8) (a : Int) : Option (Res VErr Unit) :=
  match NewEncryptRangeMessage (hb b) (NewProofConfig 11) [9] ct0 15 3 2 (35, 4, 9) (draws0 a) with
  | .ok m => some (m.verify (hb b) (NewProofConfig 11) [9] ct0 15 (35, 4, 9))
  | _ => none

/-- The log* message of these inputs. -/
def runLog (b : UInt8) (a : Int) : Option (Res VErr Unit) :=
  match NewKnowExponent (hb b) toyCurve (NewProofConfig 11) [9] 3 2 ct0 15 (35, 4, 9)
      (toyLawful.pt ((3 : ℤ) • toyLawful.base)) ⟨toyCurve.Gx, toyCurve.Gy⟩ (draws0 a) with
  | .ok m => some (m.verify (hb b) toyCurve (NewProofConfig 11) [9] ct0 15 (35, 4, 9)
      (toyLawful.pt ((3 : ℤ) • toyLawful.base)) ⟨toyCurve.Gx, toyCurve.Gy⟩)
  | _ => none

-- positive challenge, negative challenge, mask too large
example : runEnc 152 100 = some (.ok ()) := by decide +kernel
example : runEnc 64 100 = some (.ok ()) := by decide +kernel
example : runEnc 152 8193 = some (.err .z1Range) := by decide +kernel
example : runLog 152 100 = some (.ok ()) := by decide +kernel
example : runLog 64 100 = some (.ok ()) := by decide +kernel
-- the crash of C37 on this instance: challenge -8, ciphertext 3 shares a factor with 15
example : challenge (hb 64) (NewProofConfig 11).curveN [1] (encParts (NewProofConfig 11) [9] 3 15 (35, 4, 9) 1 1 1) = -8 := by
  decide +kernel
example : (crashMsg [1]).verify (hb 64) (NewProofConfig 11) [9] 3 15 (35, 4, 9) = .panic := by decide +kernel
-- text that is not a number
example : parseBig 10 (ascii "x") = none := by decide +kernel

/-- The hypotheses of completeness hold for these inputs. -/
example : Int.gcd 4 (35 : ℕ) = 1 ∧ Int.gcd 9 (35 : ℕ) = 1 ∧ Int.gcd 2 (15 : ℕ) = 1 ∧
    ((ct0 : ℤ) : ZMod (15 * 15)) = pw (1 + ((15 : ℕ) : ZMod (15 * 15))) 3 * ((2 : ℤ) : ZMod (15 * 15)) ^ 15 := by
  decide +kernel

/-- Two accepting transcripts with the same first message, as in special soundness. -/
example : ∃ q bound n N s t K S A C e z1 z2 z3 e' z1' z2' z3',
    EncRel q bound n N s t K S A C e z1 z2 z3 ∧ EncRel q bound n N s t K S A C e' z1' z2' z3' ∧ e ≠ e' ∧
    Int.gcd K n = 1 ∧ Int.gcd s N = 1 ∧ Int.gcd t N = 1 := by
  refine ⟨11, 8192, 15, 35, 4, 9, ct0, (4 ^ 3 * 9 ^ 5) % 35, (16 ^ 100 * 2 ^ 15) % 225, (4 ^ 100 * 9 ^ 7) % 35,
    1, 103, (2 * 2) % 15, 12, 0, 100, 2, 7, ?_, ?_, by decide, by decide +kernel, by decide, by decide⟩
  all_goals constructor
  all_goals decide +kernel

end Tss.RangeProofs
