import Verif.Props.ExtKey
/-
C49, non-vacuity: base58 as published meets the codec assumption, and a concrete key goes round.
-/
namespace Tss.Ckd
open Tss

theorem alpha_idx : ∀ d : Fin 58, b58alphabet.idxOf (b58alphabet.getD d 0) = d ∧ b58alphabet.contains (b58alphabet.getD d 0) = true ∧
    (b58alphabet.getD d 0 = 49 ↔ d.val = 0) := by decide +kernel

theorem digits_fold : ∀ (f n : Nat), n ≤ f → (b58digits f n).foldl (fun a d => a * 58 + d) 0 = n
  | 0, n, h => by have : n = 0 := by omega
                  subst this; rfl
  | f + 1, n, h => by
    unfold b58digits
    split
    · rename_i h0; subst h0; rfl
    · rw [List.foldl_append, digits_fold f (n / 58) (by omega)]
      simp only [List.foldl_cons, List.foldl_nil]; omega

theorem digits_lt : ∀ (f n : Nat), ∀ d ∈ b58digits f n, d < 58
  | 0, _, d, h => by simp [b58digits] at h
  | f + 1, n, d, h => by
    unfold b58digits at h
    split at h
    · simp at h
    · rw [List.mem_append] at h
      rcases h with h | h
      · exact digits_lt f _ d h
      · simp only [List.mem_singleton] at h; omega

theorem digits_nil : ∀ (f n : Nat), n ≤ f → b58digits f n = [] → n = 0
  | 0, n, h, _ => by omega
  | f + 1, n, h, e => by
    unfold b58digits at e
    split at e
    · assumption
    · simp at e

theorem digits_head : ∀ (f n : Nat), n ≤ f → (b58digits f n).head? ≠ some 0
  | 0, _, _ => by simp [b58digits]
  | f + 1, n, h => by
    unfold b58digits
    split
    · simp
    · rename_i h0
      have ih := digits_head f (n / 58) (by omega)
      cases e : b58digits f (n / 58) with
      | nil =>
        have := digits_nil f (n / 58) (by omega) e
        simp only [List.nil_append, List.head?_cons, ne_eq, Option.some.injEq]; omega
      | cons a t => rw [e] at ih; simpa using ih

theorem fold_alpha : ∀ (l : List Nat) (acc : Nat), (∀ d ∈ l, d < 58) →
    (l.map fun d => b58alphabet.getD d 0).foldl (fun a c => a * 58 + b58alphabet.idxOf c) acc = l.foldl (fun a d => a * 58 + d) acc
  | [], _, _ => rfl
  | d :: t, acc, h => by
    have hd := h d (by simp)
    simp only [List.map_cons, List.foldl_cons]
    rw [(alpha_idx ⟨d, hd⟩).1]
    exact fold_alpha t _ fun x hx => h x (by simp [hx])

theorem fold_ones : ∀ (z : Nat) (l : Bytes), (List.replicate z 49 ++ l).foldl (fun a c => a * 58 + b58alphabet.idxOf c) 0 =
    l.foldl (fun a c => a * 58 + b58alphabet.idxOf c) 0
  | 0, _ => rfl
  | z + 1, l => by
    rw [List.replicate_succ, List.cons_append, List.foldl_cons]
    have : b58alphabet.idxOf 49 = 0 := by decide +kernel
    rw [this]; exact fold_ones z l

theorem leading_replicate (x : UInt8) (z : Nat) (l : Bytes) (h : l.head? ≠ some x) : leading x (List.replicate z x ++ l) = z := by
  unfold leading
  induction z with
  | zero =>
    cases l with
    | nil => rfl
    | cons a t =>
      have : ¬ (a == x) = true := by simpa using h
      simp [this]
  | succ z ih => rw [List.replicate_succ, List.cons_append, List.takeWhile_cons, if_pos (by simp), List.length_cons, ih]

theorem zeros_strip : ∀ b : Bytes, List.replicate (leading 0 b) 0 ++ stripZeros b = b
  | [] => rfl
  | a :: t => by
    unfold leading
    rw [List.takeWhile_cons]
    by_cases h : a = 0
    · subst h
      have ih := zeros_strip t
      unfold leading at ih
      simp only [BEq.rfl, if_true, List.length_cons, List.replicate_succ, List.cons_append, stripZeros, ih]
    · rw [if_neg (by simpa using h)]; simp [stripZeros, h]

/-- C49: decoding inverts encoding for base58 as published, leading zero octets included. -/
theorem C49_base58_decode_encode (b : Bytes) : base58Decode (base58Encode b) = b := by
  have hd := digits_lt (beNat b) (beNat b)
  unfold base58Decode base58Encode
  have hall : ((List.replicate (leading 0 b) 49 ++ (b58digits (beNat b) (beNat b)).map fun d => b58alphabet.getD d 0).all
      fun c => b58alphabet.contains c) = true := by
    rw [List.all_eq_true]
    intro c hc
    rw [List.mem_append] at hc
    rcases hc with hc | hc
    · rw [List.eq_of_mem_replicate hc]; decide +kernel
    · obtain ⟨d, h1, rfl⟩ := List.mem_map.mp hc
      exact (alpha_idx ⟨d, hd d h1⟩).2.1
  rw [if_pos hall]
  simp only
  rw [fold_ones, fold_alpha _ _ hd, digits_fold _ _ (le_refl _), natBE_beNat, leading_replicate, zeros_strip]
  have hh := digits_head (beNat b) (beNat b) (le_refl _)
  cases e : b58digits (beNat b) (beNat b) with
  | nil => simp
  | cons d t =>
    rw [e] at hh hd
    have hd' := hd d (by simp)
    have := (alpha_idx ⟨d, hd'⟩).2.2
    simp only [List.map_cons, List.head?_cons, ne_eq, Option.some.injEq] at hh ⊢
    rw [this]; exact hh

/-- Published base58 with a stand-in digest of 32 octets. -/
def toyStr : StrEnv := ⟨base58Encode, base58Decode, fun b => beFixed 32 (beNat b * 7 + b.length)⟩

theorem toyStr_codec : spec.Codec toyStr := ⟨C49_base58_decode_encode, fun _ => by simp [toyStr]⟩

/-- The generator of secp256k1. -/
def secpG : ECPoint :=
  ⟨0x79BE667EF9DCBBAC55A06295CE870B07029BFCDB2DCE28D959F2815B16F81798, 0x483ADA7726A3C4655DA4FBFC0E1108A8FD17B448A68554199C47D08FFB10D4B8⟩

theorem secpG_on : spec.OnSecp secpG := by
  refine ⟨?_, ?_, ?_, ?_, ?_⟩ <;> norm_num [secpG, secpP]

/-- A key with the BIP32 main-net version and a hardened child number; the generator is its public key. -/
def exKey : Key :=
  { pub := some secpG, deduce := some secpG, depth := 3, childIndex := 0x80000002, priv := [1], chainCode := List.replicate 32 0x87,
    parentFP := [0x34, 0x42, 0x19, 0x3e], version := [0x04, 0x88, 0xb2, 0x1e] }

theorem exKey_ok : spec.Bip32Key exKey := ⟨rfl, by decide, rfl, by decide, rfl, _, rfl, secpG_on⟩

example : ∃ s, exKey.serialize toyStr = .ok s ∧
    newExtendedKeyFromString toyStr s .koblitz = .ok { exKey with deduce := none, priv := [] } := C49_round_trip toyStr_codec exKey_ok

/-- A key as the library makes it, on a stand-in hash. -/
def exEnv (c : Curve) : Env := ⟨c, fun b => beFixed 20 (beNat b), fun a b => beFixed 64 (beNat a + beNat b)⟩

example (c : Curve) : ∃ s, (newExtendKey (exEnv c) [1] secpG secpG 0 0 (List.replicate 32 7)).serialize toyStr = .ok s ∧
    newExtendedKeyFromString toyStr s .koblitz = .err .invalidExtendedKey :=
  C49_made_keys_do_not_parse toyStr_codec (E := exEnv c) (sN := 7) (fun _ => by simp [exEnv]) (fun _ _ => by simp [exEnv])
    (.new (by simp) (by norm_num [secpG]) (by norm_num [secpG])) .koblitz

example : ∃ s k', { exKey with version := [0], chainCode := List.replicate 35 9 }.serialize toyStr = .ok s ∧
    newExtendedKeyFromString toyStr s .koblitz = .ok k' ∧ k'.version ≠ [0] := by
  obtain ⟨s, k', h1, h2, _, h3, _⟩ := C49_misparse toyStr_codec (k := { exKey with version := [0], chainCode := List.replicate 35 9 })
    rfl rfl (by simp) rfl secpG_on
  exact ⟨s, k', h1, h2, h3⟩

/-- Octets of a compressed key whose x is P + 1, i.e. not reduced. -/
def bigX : Bytes := 2 :: beFixed 32 (secpP + 1)

/-- C49: compressed keys whose x is not below the field modulus are accepted, and the x of the key is the unreduced number: the
string names the point with x = 1 but is not the string of that point. -/
theorem C49_unreduced_x_accepted : ∃ p q, parsePubKey bigX = some p ∧ p.x = (secpP : Int) + 1 ∧
    parsePubKey (2 :: beFixed 32 1) = some q ∧ q.x = 1 ∧ p.y = q.y := by
  have e : decompressPoint (secpP + 1) false = decompressPoint 1 false := by
    unfold decompressPoint
    have : ((secpP + 1) ^ 3 + 7) % secpP = (1 ^ 3 + 7) % secpP := by
      rw [Nat.add_mod, Nat.pow_mod, Nat.add_mod_left]; norm_num [secpP]
    rw [this]
  have h : ∃ y, decompressPoint 1 false = some y := by
    rw [← Option.isSome_iff_exists]; decide +kernel
  obtain ⟨y, hy⟩ := h
  have b1 : beNat (beFixed 32 (secpP + 1)) = secpP + 1 := by rw [beNat_beFixed]; norm_num [secpP]
  have b2 : beNat (beFixed 32 1) = 1 := by rw [beNat_beFixed]; norm_num
  refine ⟨⟨(secpP : Int) + 1, y⟩, ⟨1, y⟩, ?_, rfl, ?_, rfl, rfl⟩
  · unfold bigX parsePubKey
    simp only
    rw [if_neg (by simp), if_neg (by decide), b1]
    rw [show decide ((2 : UInt8) &&& 1 = 1) = false by decide, e, hy]
    simp
  · unfold parsePubKey
    simp only
    rw [if_neg (by simp), if_neg (by decide), b2]
    rw [show decide ((2 : UInt8) &&& 1 = 1) = false by decide, hy]
    simp

end Tss.Ckd
