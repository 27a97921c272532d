import Verif.Lemmas.Common
/-
Properties C01-C07 (package common).
-/
namespace Tss.Common
open Tss

/-! ## C01 -/

/-- C01: there is one preimage encoding, the same for every hash function, that `SHA512_256` applies
before hashing; it is injective on lists of byte strings of Go size, whatever the bytes. -/
theorem C01_framing_injective :
    ∃ pre : List Bytes → Bytes,
      (∀ (H : Bytes → Bytes) (parts : List Bytes), parts ≠ [] → SHA512_256 H parts = some (H (pre parts))) ∧
      (∀ a b : List Bytes, Sized a → Sized b → pre a = pre b → a = b) := by
  refine ⟨frame, ?_, fun a b ha hb h => frame_inj ha hb h⟩
  intro H parts h
  unfold SHA512_256
  rw [if_neg (by simpa using h)]

/-- C01: with a collision-free hash, equal digests mean equal part lists. -/
theorem C01_equal_digest_equal_parts (H : Bytes → Bytes) (hH : Function.Injective H)
    (a b : List Bytes) (ha : Sized a) (hb : Sized b) (h : SHA512_256 H a = SHA512_256 H b) : a = b := by
  unfold SHA512_256 at h
  split at h <;> split at h
  · next h1 h2 => rw [List.length_eq_zero_iff.mp h1, List.length_eq_zero_iff.mp h2]
  · simp at h
  · simp at h
  · exact frame_inj ha hb (hH (by simpa using h))

/-- C01: for every hash function, an equal digest of different part lists exhibits two different
octet strings (the two framed inputs) with the same hash. -/
theorem C01_collision (H : Bytes → Bytes) (a b : List Bytes) (ha : Sized a) (hb : Sized b) (hab : a ≠ b)
    (hne : a ≠ []) (h : SHA512_256 H a = SHA512_256 H b) : frame a ≠ frame b ∧ H (frame a) = H (frame b) := by
  refine ⟨fun e => hab (frame_inj ha hb e), ?_⟩
  unfold SHA512_256 at h
  rw [if_neg (by simpa using hne)] at h
  split at h
  · simp at h
  · simpa using h

/-- C01: the result is nil exactly when there are no parts. -/
theorem C01_nil_iff (H : Bytes → Bytes) (parts : List Bytes) : SHA512_256 H parts = none ↔ parts = [] := by
  unfold SHA512_256
  split <;> simp_all

/-- Non-vacuity: two splittings of the same octets, with delimiter bytes inside, are told apart. -/
example : frame [[0x24, 1], [2]] ≠ frame [[0x24], [1, 2]] ∧ Sized [[0x24, 1], [2]] ∧ Sized [[0x24], [1, 2]] := by
  refine ⟨by decide, ?_, ?_⟩ <;> simp [Sized]

/-! ## C02 -/

/-- Integers small enough to have a Go-sized byte encoding, in a Go-sized list. -/
def SizedInts (ins : List Int) : Prop := ins.length < 2 ^ 63 ∧ ∀ z ∈ ins, (intBytes z).length < 2 ^ 63

theorem SizedInts.sized {ins : List Int} (h : SizedInts ins) : Sized (ins.map intBytes) := by
  refine ⟨by simpa using h.1, ?_⟩
  intro p hp
  obtain ⟨z, hz, rfl⟩ := List.mem_map.mp hp
  exact h.2 z hz

theorem map_intBytes_eq_iff (a b : List Int) :
    a.map intBytes = b.map intBytes ↔ a.map Int.natAbs = b.map Int.natAbs := by
  constructor
  · intro h
    have := congrArg (List.map beNat) h
    simpa [List.map_map, Function.comp_def] using this
  · intro h
    have := congrArg (List.map natBE) h
    rw [List.map_map, List.map_map] at this
    exact this

/-- C02: `SHA512_256i` binds the number of integers and their absolute values: one fixed preimage
encoding for all hashes, equal on two lists iff their absolute values agree position by position. -/
theorem C02_int_framing :
    ∃ pre : List Int → Bytes,
      (∀ (H : Bytes → Bytes) (ins : List Int), ins ≠ [] →
        SHA512_256i H (ins.map some) = .ok (some (beNat (H (pre ins)) : Int))) ∧
      (∀ a b : List Int, SizedInts a → SizedInts b →
        (pre a = pre b ↔ a.map Int.natAbs = b.map Int.natAbs)) := by
  refine ⟨fun ins => frame (ins.map intBytes), ?_, ?_⟩
  · intro H ins h
    unfold SHA512_256i
    rw [if_neg (by simpa using h), bytesOfAll_some]
  · intro a b ha hb
    constructor
    · intro h
      exact (map_intBytes_eq_iff a b).mp (frame_inj ha.sized hb.sized h)
    · intro h
      simp only
      rw [(map_intBytes_eq_iff a b).mpr h]

/-- C02: equal `SHA512_256i` digests (of a fixed-length hash): same absolute values, or a collision. -/
theorem C02_int_digest_binding (H : Bytes → Bytes) (hlen : ∀ x, (H x).length = 32) (a b : List Int)
    (ha : SizedInts a) (hb : SizedInts b) (hna : a ≠ []) (hnb : b ≠ [])
    (h : SHA512_256i H (a.map some) = SHA512_256i H (b.map some)) :
    a.map Int.natAbs = b.map Int.natAbs ∨
      (frame (a.map intBytes) ≠ frame (b.map intBytes) ∧ H (frame (a.map intBytes)) = H (frame (b.map intBytes))) := by
  unfold SHA512_256i at h
  rw [if_neg (by simpa using hna), if_neg (by simpa using hnb), bytesOfAll_some, bytesOfAll_some] at h
  simp only [Res.ok.injEq, Option.some.injEq] at h
  have hd := beNat_digest_inj (by rw [hlen, hlen]) h
  by_cases he : frame (a.map intBytes) = frame (b.map intBytes)
  · left
    exact (map_intBytes_eq_iff a b).mp (frame_inj ha.sized hb.sized he)
  · exact Or.inr ⟨he, hd⟩

/-- C02: the sign of no input is bound, in any of the three integer hashes. -/
theorem C02_sign_not_bound (H : Bytes → Bytes) (tag : Bytes) (a b : List Int)
    (h : a.map Int.natAbs = b.map Int.natAbs) :
    SHA512_256i H (a.map some) = SHA512_256i H (b.map some) ∧
    SHA512_256i_TAGGED H tag (a.map some) = SHA512_256i_TAGGED H tag (b.map some) ∧
    ∀ z : Int, SHA512_256iOne H (some (-z)) = SHA512_256iOne H (some z) := by
  have hl : a.length = b.length := by simpa using congrArg List.length h
  have hm := (map_intBytes_eq_iff a b).mpr h
  refine ⟨?_, ?_, ?_⟩
  · unfold SHA512_256i
    rw [bytesOfAll_some, bytesOfAll_some, hm]
    simp [hl]
  · unfold SHA512_256i_TAGGED
    simp only [List.map_map, List.length_map, hl]
    have : (bytesOrZero ∘ some : Int → Bytes) = intBytes := rfl
    rw [this, hm]
  · intro z
    simp [SHA512_256iOne, intBytes_neg]

/-- C02: in the tagged hash nil hashes like zero; in the untagged one a nil argument panics. -/
theorem C02_nil_arguments (H : Bytes → Bytes) (tag : Bytes) (ins : List (Option Int)) :
    SHA512_256i_TAGGED H tag ins = SHA512_256i_TAGGED H tag (ins.map fun z => some (z.getD 0)) ∧
    (SHA512_256i H ins = .panic ↔ none ∈ ins) := by
  constructor
  · unfold SHA512_256i_TAGGED
    simp only [List.length_map, List.map_map]
    have : (bytesOrZero ∘ fun z : Option Int => some (z.getD 0)) = bytesOrZero := by
      funext z; cases z <;> rfl
    rw [this]
  · unfold SHA512_256i
    cases ins with
    | nil => simp
    | cons z t =>
      rw [if_neg (by simp)]
      rw [← bytesOfAll_none_iff]
      cases bytesOfAll (z :: t) <;> simp

/-- C02: equal tagged digests bind the tag and the absolute values, or exhibit a collision, either of
the two tag hashes or of the two outer hashes. -/
theorem C02_tagged_binding (H : Bytes → Bytes) (hlen : ∀ x, (H x).length = 32)
    (t t' : Bytes) (ht : t.length < 2 ^ 63) (ht' : t'.length < 2 ^ 63) (a b : List Int)
    (ha : SizedInts a) (hb : SizedInts b) (hna : a ≠ []) (hnb : b ≠ [])
    (h : SHA512_256i_TAGGED H t (a.map some) = SHA512_256i_TAGGED H t' (b.map some)) :
    (t = t' ∧ a.map Int.natAbs = b.map Int.natAbs) ∨
    (frame [t] ≠ frame [t'] ∧ H (frame [t]) = H (frame [t'])) ∨
    (let x := H (frame [t]) ++ H (frame [t]) ++ frame (a.map intBytes)
     let y := H (frame [t']) ++ H (frame [t']) ++ frame (b.map intBytes)
     x ≠ y ∧ H x = H y) := by
  unfold SHA512_256i_TAGGED at h
  have hf : (bytesOrZero ∘ some : Int → Bytes) = intBytes := rfl
  simp only [SHA512_256, List.length_cons, List.length_nil, Nat.zero_add, Nat.one_ne_zero, if_false,
    Option.getD_some, List.length_map, List.map_map, hf] at h
  rw [if_neg (by simpa using hna), if_neg (by simpa using hnb)] at h
  simp only [Option.some.injEq] at h
  have hd := beNat_digest_inj (by rw [hlen, hlen]) h
  by_cases hx : H (frame [t]) ++ H (frame [t]) ++ frame (a.map intBytes) =
      H (frame [t']) ++ H (frame [t']) ++ frame (b.map intBytes)
  · obtain ⟨h1, h2⟩ := List.append_inj hx (by simp [hlen])
    obtain ⟨h3, -⟩ := List.append_inj h1 (by simp [hlen])
    have hab := (map_intBytes_eq_iff a b).mp (frame_inj ha.sized hb.sized h2)
    by_cases hfr : frame [t] = frame [t']
    · have := frame_inj (a := [t]) (b := [t']) ⟨by simp, by simpa using ht⟩ ⟨by simp, by simpa using ht'⟩ hfr
      exact Or.inl ⟨by simpa using this, hab⟩
    · exact Or.inr (Or.inl ⟨hfr, h3⟩)
  · exact Or.inr (Or.inr ⟨hx, hd⟩)

/-- Non-vacuity of the hypotheses of C02, and a sign alias. -/
example : SizedInts [3, -7, 0] ∧ ([3, -7, 0] : List Int) ≠ [] ∧
    ([3, -7, 0] : List Int).map Int.natAbs = ([-3, 7, 0] : List Int).map Int.natAbs := by
  refine ⟨⟨by simp, ?_⟩, by simp, by decide⟩
  intro z hz
  have : (intBytes z).length ≤ 1 := by
    simp only [List.mem_cons, List.not_mem_nil, or_false] at hz
    rcases hz with rfl | rfl | rfl <;> decide
  omega

/-! ## C03 -/

/-- C03: for positive `q` the sample is the residue of the hash and lies in `[0,q)`; only `q = 0` panics. -/
theorem C03_rejection_sample (q h : Int) (hq : 0 < q) :
    ∃ e, RejectionSample q h = .ok e ∧ 0 ≤ e ∧ e < q ∧ q ∣ h - e := by
  refine ⟨h % q, ?_, Int.emod_nonneg _ (by omega), Int.emod_lt_of_pos _ hq, ?_⟩
  · unfold RejectionSample; rw [if_neg (by omega)]
  · exact Int.dvd_self_sub_emod

theorem C03_unique (q h e : Int) (hq : 0 < q) (h0 : 0 ≤ e) (h1 : e < q) (hd : q ∣ h - e) :
    RejectionSample q h = .ok e := by
  unfold RejectionSample
  rw [if_neg (by omega)]
  congr 1
  obtain ⟨k, hk⟩ := hd
  have : h = e + q * k := by omega
  rw [this, Int.add_mul_emod_self_left, Int.emod_eq_of_lt h0 h1]

example : RejectionSample 7 100 = .ok 2 := by decide

/-! ## C04 -/

/-- C04: `GetRandomPositiveInt` returns nil exactly for a nil or non-positive bound; any other value it
returns is in `[0, n)`. -/
theorem C04_positive_int_range (n : Option Int) (fuel : Nat) (tape : Bytes) (r : Option Int) (rest : Bytes)
    (h : GetRandomPositiveInt n fuel tape = some (.ok (r, rest))) :
    (r = none ↔ (n = none ∨ ∃ m, n = some m ∧ m ≤ 0)) ∧
    (∀ v, r = some v → ∃ m, n = some m ∧ 0 ≤ v ∧ v < m) := by
  unfold GetRandomPositiveInt at h
  cases n with
  | none => simp at h; simp [h.1.symm]
  | some m =>
    simp only at h
    split at h
    · next hm =>
      simp only [Option.some.injEq, Res.ok.injEq, Prod.mk.injEq] at h
      rw [← h.1]
      simp; omega
    · next hm =>
      obtain ⟨v, rfl, h0, h1⟩ := getRandomPositiveIntLoop_range fuel tape r rest h
      constructor
      · simp; omega
      · intro w hw
        simp only [Option.some.injEq] at hw
        subst hw
        exact ⟨m, rfl, h0, h1⟩

/-- C04: every value of `[0,n)` occurs: there is a tape on which it is the first draw
(for bounds of at most 5000 bits; larger bounds panic, see `C04_large_bound_panics`). -/
theorem C04_every_value_occurs (n v : Nat) (hn : bitLen (n : Int) ≤ 5000) (hv : v < n) (suffix : Bytes) :
    ∃ pre : Bytes, GetRandomPositiveInt (some n) 1 (pre ++ suffix) = some (.ok (some (v : Int), suffix)) := by
  obtain ⟨pre, hpre⟩ := MustGetRandomInt_reach (bitLen (n : Int)) v (bitLen_pos (by omega)) hn
    (lt_pow_bitLen_sub_one hv) suffix
  refine ⟨pre, ?_⟩
  unfold GetRandomPositiveInt
  simp only
  rw [if_neg (by omega)]
  unfold getRandomPositiveIntLoop
  simp only [hpre]
  rw [if_pos (by omega)]

/-- C04: bounds of more than 5000 bits make the call panic. -/
theorem C04_large_bound_panics (n : Int) (hn : 0 < n) (hb : 5000 < bitLen n) (fuel : Nat) (tape : Bytes) :
    GetRandomPositiveInt (some n) (fuel + 1) tape = some .panic := by
  unfold GetRandomPositiveInt
  simp only
  rw [if_neg (by omega)]
  unfold getRandomPositiveIntLoop MustGetRandomInt
  rw [if_pos (Or.inr (by simp [mustGetRandomIntMaxBits]; omega))]

/-- C04: `MustGetRandomInt` panics outside 1..5000 bits (whatever the tape) and otherwise any value it
returns is in `[0, 2^bits - 1)` — the all-ones value can never come out — while every smaller value can. -/
theorem C04_must_get_random_int (bits : Int) :
    ((bits ≤ 0 ∨ 5000 < bits) → ∀ tape, MustGetRandomInt bits tape = .panic) ∧
    (∀ tape n rest, MustGetRandomInt bits tape = .ok (n, rest) → 0 ≤ n ∧ n < 2 ^ bits.toNat - 1) ∧
    (0 < bits → bits ≤ 5000 → ∀ v : Nat, (v : Int) < 2 ^ bits.toNat - 1 →
      ∃ tape, MustGetRandomInt bits tape = .ok ((v : Int), [])) := by
  refine ⟨?_, ?_, ?_⟩
  · intro h tape
    unfold MustGetRandomInt
    rw [if_pos (by simpa [mustGetRandomIntMaxBits] using h)]
  · intro tape n rest h
    exact (MustGetRandomInt_range h).2.2
  · intro h1 h2 v hv
    obtain ⟨k, rfl⟩ : ∃ k : Nat, bits = k := ⟨bits.toNat, by omega⟩
    have hv' : v < 2 ^ k - 1 := by
      have h3 : 1 ≤ 2 ^ k := Nat.one_le_two_pow
      simp only [Int.toNat_natCast] at hv
      zify [h3]
      exact hv
    obtain ⟨pre, hpre⟩ := MustGetRandomInt_reach k v (by omega) (by omega) hv' []
    exact ⟨pre ++ [], hpre⟩

/-- C04: `GetRandomPositiveRelativelyPrimeInt` returns only units: `1 ≤ v < n` and `gcd(v,n) = 1`;
nil exactly for a nil or non-positive modulus. -/
theorem C04_relatively_prime (n : Option Int) (fuel : Nat) (tape : Bytes) (r : Option Int) (rest : Bytes)
    (h : GetRandomPositiveRelativelyPrimeInt n fuel tape = some (.ok (r, rest))) :
    (r = none ↔ (n = none ∨ ∃ m, n = some m ∧ m ≤ 0)) ∧
    (∀ v, r = some v → ∃ m, n = some m ∧ 1 ≤ v ∧ v < m ∧ Int.gcd v m = 1) := by
  unfold GetRandomPositiveRelativelyPrimeInt at h
  cases n with
  | none => simp at h; simp [h.1.symm]
  | some m =>
    simp only at h
    split at h
    · next hm =>
      simp only [Option.some.injEq, Res.ok.injEq, Prod.mk.injEq] at h
      rw [← h.1]
      simp; omega
    · next hm =>
      obtain ⟨v, rfl, hv⟩ := relPrimeLoop_range fuel tape r rest h
      have hm' : 0 < m := by omega
      simp only [IsNumberInMultiplicativeGroup, hm', not_true, if_false, Bool.and_eq_true,
        decide_eq_true_eq, beq_iff_eq] at hv
      constructor
      · simp; omega
      · intro w hw
        simp only [Option.some.injEq] at hw
        subst hw
        exact ⟨m, rfl, hv.1.2, hv.1.1, hv.2⟩

/-- C04: for `n = 1` there is no unit in range and the retry loop never ends, whatever the randomness. -/
theorem C04_relatively_prime_one_hangs (fuel : Nat) (tape : Bytes) :
    GetRandomPositiveRelativelyPrimeInt (some 1) fuel tape = none := by
  unfold GetRandomPositiveRelativelyPrimeInt
  simp only [Int.one_pos, not_true, if_false]
  induction fuel generalizing tape with
  | zero => rfl
  | succ f ih =>
    unfold relPrimeLoop
    have : MustGetRandomInt (bitLen 1) tape = .ok (0, tape) := by
      have hb : bitLen 1 = 1 := by decide
      have hb0 : bitLen ((2 : Int) ^ (1 : Nat) - 1 - 1) = 0 := by decide
      rw [hb]
      simp only [MustGetRandomInt, mustGetRandomIntMaxBits, randInt]
      rw [if_neg (by decide), if_neg (by decide)]
      rw [if_pos (by decide)]
    simp only [this]
    rw [if_neg (by decide)]
    exact ih tape

/-- C04: the multiplicative-group test is exact. -/
theorem C04_group_test (n v : Int) :
    IsNumberInMultiplicativeGroup (some n) (some v) = true ↔ (0 < n ∧ 1 ≤ v ∧ v < n ∧ Int.gcd v n = 1) := by
  by_cases h : 0 < n
  · simp [IsNumberInMultiplicativeGroup, h]; tauto
  · simp [IsNumberInMultiplicativeGroup, h]

example : GetRandomPositiveInt (some 1000) 5 [0xff, 0xff, 0x02, 0x01] = some (.ok (some 513, [])) := by decide
example : GetRandomPositiveRelativelyPrimeInt (some 15) 5 [6, 7] = some (.ok (some 7, [])) := by decide

/-! ## C05 -/

/-- C05: the result has length `max (len src) n`, denotes the same integer, and is `src` behind zeros. -/
theorem C05_pad (src : Bytes) (n : Int) :
    ((PadToLengthBytesInPlace src n).length : Int) = max (src.length : Int) n ∧
    beNat (PadToLengthBytesInPlace src n) = beNat src ∧
    ∃ k, PadToLengthBytesInPlace src n = List.replicate k 0 ++ src := by
  unfold PadToLengthBytesInPlace
  split
  · next h =>
    rw [prependZeros_eq]
    refine ⟨?_, beNat_zeros_append _ _, _, rfl⟩
    simp only [List.length_append, List.length_replicate]
    omega
  · next h =>
    exact ⟨by omega, rfl, 0, rfl⟩

example : PadToLengthBytesInPlace [1, 2] 4 = [0, 0, 1, 2] := by decide

/-! ## C06 -/

/-- C06: converting integers to bytes and back gives the absolute values (nil gives 0). -/
theorem C06_round_trip (l : List (Option Int)) :
    MultiBytesToBigInts (BigIntsToBytes l) = l.map fun z => |z.getD 0| := by
  unfold MultiBytesToBigInts BigIntsToBytes
  rw [List.map_map]
  apply List.map_congr_left
  intro z _
  cases z with
  | none => simp [beNat]
  | some z => simp

/-- C06: `NonEmptyMultiBytes` says exactly: a non-empty list of non-empty strings of the expected count. -/
theorem C06_nonEmptyMultiBytes (bzs : List Bytes) (n : Option Int) :
    NonEmptyMultiBytes bzs n = true ↔
      bzs ≠ [] ∧ (∀ k, n = some k → k = bzs.length) ∧ ∀ b ∈ bzs, b ≠ [] := by
  unfold NonEmptyMultiBytes
  cases bzs with
  | nil => simp
  | cons b t =>
    rw [if_neg (by simp)]
    cases n with
    | none => simp only; rw [allNonEmpty_iff]; simp
    | some k =>
      simp only
      split
      · next h => simp only [Bool.false_eq_true, false_iff]; intro hc; exact h (hc.2.1 k rfl)
      · next h => rw [allNonEmpty_iff]; simp only [ne_eq, not_not] at h; simp [h]

theorem C06_nonEmptyBytes (b : Bytes) : NonEmptyBytes b = true ↔ b ≠ [] := by
  cases b <;> simp [NonEmptyBytes]

example : NonEmptyMultiBytes [[1], [2, 3]] (some 2) = true ∧ NonEmptyMultiBytes [[1], []] (some 2) = false := by
  decide

/-! ## C07 -/

/-- C07: for a positive modulus the four operations return the canonical residue of the exact result. -/
theorem C07_ring_ops (n x y : Int) (hn : 0 < n) :
    (∃ r, modAdd n x y = .ok r ∧ 0 ≤ r ∧ r < n ∧ r ≡ x + y [ZMOD n]) ∧
    (∃ r, modSub n x y = .ok r ∧ 0 ≤ r ∧ r < n ∧ r ≡ x - y [ZMOD n]) ∧
    (∃ r, modMul n x y = .ok r ∧ 0 ≤ r ∧ r < n ∧ r ≡ x * y [ZMOD n]) := by
  have hne : n ≠ 0 := by omega
  refine ⟨⟨_, by simp [modAdd, hne], Int.emod_nonneg _ hne, Int.emod_lt_of_pos _ hn, Int.mod_modEq _ _⟩,
    ⟨_, by simp [modSub, hne], Int.emod_nonneg _ hne, Int.emod_lt_of_pos _ hn, Int.mod_modEq _ _⟩,
    ⟨_, by simp [modMul, hne], Int.emod_nonneg _ hne, Int.emod_lt_of_pos _ hn, Int.mod_modEq _ _⟩⟩

/-- C07: the inverse exists iff the argument is coprime to the modulus; it is then the inverse in `[0,n)`. -/
theorem C07_inverse (n g : Int) (hn : 0 < n) :
    (modInv n g = none ↔ Int.gcd g n ≠ 1) ∧
    (∀ x, modInv n g = some x → 0 ≤ x ∧ x < n ∧ g * x ≡ 1 [ZMOD n]) := by
  refine ⟨modInverse_eq_none, ?_⟩
  intro x h
  have := modInverse_spec (by omega) h
  rwa [abs_of_pos hn] at this

/-- C07: non-negative exponents give the residue of the power; a negative exponent gives the power of
the inverse: multiplied by the positive power it is 1; it is nil iff there is no inverse. -/
theorem C07_exp (n x : Int) (hn : 0 < n) (k : Nat) :
    (∃ r, modExp n x k = some r ∧ 0 ≤ r ∧ r < n ∧ r ≡ x ^ k [ZMOD n]) ∧
    (0 < k → (modExp n x (-k) = none ↔ Int.gcd x n ≠ 1) ∧
      ∀ r, modExp n x (-k) = some r → 0 ≤ r ∧ r < n ∧ r * x ^ k ≡ 1 [ZMOD n]) := by
  have hne : n ≠ 0 := by omega
  constructor
  · refine ⟨x ^ k % n, ?_, Int.emod_nonneg _ hne, Int.emod_lt_of_pos _ hn, Int.mod_modEq _ _⟩
    unfold modExp bigExp
    rw [if_neg hne, if_neg (by omega)]
    simp
  · intro hk
    have hneg : (-(k : Int)) < 0 := by omega
    have hgen : modExp n x (-k) = (modInverse x n).map fun xi => xi ^ k % n := by
      unfold modExp bigExp
      rw [if_neg hne, if_pos hneg]
      cases modInverse x n <;> simp
    rw [hgen]
    constructor
    · rw [Option.map_eq_none_iff, modInverse_eq_none]
    · intro r hr
      cases hi : modInverse x n with
      | none => simp [hi] at hr
      | some xi =>
        simp only [hi, Option.map_some, Option.some.injEq] at hr
        subst hr
        refine ⟨Int.emod_nonneg _ hne, Int.emod_lt_of_pos _ hn, ?_⟩
        have h1 := (modInverse_spec hne hi).2.2
        have h2 : xi ^ k % n * x ^ k ≡ xi ^ k * x ^ k [ZMOD n] := (Int.mod_modEq _ _).mul_right _
        have h3 : xi ^ k * x ^ k ≡ 1 [ZMOD n] := by
          rw [← mul_pow, mul_comm xi x]
          have := h1.pow k
          rwa [one_pow] at this
        exact h2.trans h3

example : modExp 7 3 (-2) = some 4 ∧ modExp 6 2 (-1) = none ∧ modInv 7 3 = some 5 := by decide

end Tss.Common
