import Verif.Lemmas.AlicePrime
/-
Properties C65 (helper functions of crypto/alice/utils) and C66 (its safe-prime search).
-/
namespace Tss.Alice
open Tss Text

/-! ## C65: range checks and random draws -/

/-- C65: `InRange(v, floor, ceil)` succeeds exactly on the half-open interval, for all integers. -/
theorem C65_inRange_exact (v f c : Int) : InRange v f c = .ok () ↔ f ≤ v ∧ v < c := InRange_ok

/-- C65: the failures are told apart: an empty interval, or a value outside it. -/
theorem C65_inRange_errors (v f c : Int) :
    (InRange v f c = .err .largerFloor ↔ c ≤ f) ∧
    (InRange v f c = .err .notInRange ↔ f < c ∧ (v < f ∨ c ≤ v)) := by
  unfold InRange
  constructor <;> (split <;> [skip; (split <;> [skip; split])]) <;> simp_all <;> omega

/-- C65: every value `RandomAbsoluteRangeInt(n)` returns lies in `[1-n, n+1]`. -/
theorem C65_absoluteRange_sound {n : Int} {tape : Bytes} {v : Int} {rest : Bytes}
    (h : RandomAbsoluteRangeInt n tape = .ok (v, rest)) : 1 - n ≤ v ∧ v ≤ n + 1 := by
  unfold RandomAbsoluteRangeInt at h
  cases hr : RandomPositiveInt ((n + 1) * 2) tape with
  | ok r =>
    obtain ⟨x, r⟩ := r
    rw [hr] at h
    simp only [Res.ok.injEq, Prod.mk.injEq] at h
    have := RandomPositiveInt_range hr
    omega
  | err e => rw [hr] at h; simp at h
  | panic => rw [hr] at h; simp at h

/-- C65: and every value of that interval is returned for some random tape; so the documented range
`[-n, n]` is wrong at both ends: `-n` never occurs and `n+1` does. -/
theorem C65_absoluteRange_complete (n : Nat) (v : Int) (h1 : 1 - (n : Int) ≤ v) (h2 : v ≤ n + 1) (rest : Bytes) :
    ∃ tape, RandomAbsoluteRangeInt n tape = .ok (v, rest) := by
  obtain ⟨tape, ht⟩ := RandomInt_reach (2 * n + 1) (v + n - 1).toNat (by omega) rest
  refine ⟨tape, ?_⟩
  unfold RandomAbsoluteRangeInt RandomPositiveInt
  have e : ((n : Int) + 1) * 2 - 1 = ((2 * n + 1 : Nat) : Int) := by omega
  rw [e, ht]
  simp only [Res.ok.injEq, Prod.mk.injEq, and_true]
  omega

/-- C65: `RandomInt`, `RandomPositiveInt`, `RandomCoprimeInt` stay in `[0,n)`, `[1,n)`, and the units of
`[2,n)`. -/
theorem C65_draws_in_range (n : Int) (tape : Bytes) (v : Int) (rest : Bytes) :
    (RandomInt n tape = .ok (v, rest) → 0 ≤ v ∧ v < n) ∧
    (RandomPositiveInt n tape = .ok (v, rest) → 1 ≤ v ∧ v < n) ∧
    (RandomCoprimeInt n tape = .ok (v, rest) → 2 ≤ v ∧ v < n ∧ Int.gcd v n = 1) := by
  refine ⟨RandomInt_range, RandomPositiveInt_range, ?_⟩
  intro h
  unfold RandomCoprimeInt at h
  split at h
  · simp at h
  · exact randomCoprimeLoop_range _ _ _ _ h

/-- C65: none of them panics, whatever the argument and the tape. -/
theorem C65_draws_never_panic (n : Int) (tape : Bytes) :
    RandomInt n tape ≠ .panic ∧ RandomPositiveInt n tape ≠ .panic ∧ RandomCoprimeInt n tape ≠ .panic ∧
      RandomAbsoluteRangeInt n tape ≠ .panic := by
  have h0 : ∀ (n : Int) (tape : Bytes), RandomInt n tape ≠ .panic := by
    intro n tape
    unfold RandomInt
    split
    · simp
    · next h =>
      cases hr : Common.randInt n tape with
      | ok r => simp
      | err e => simp
      | panic =>
        exfalso
        unfold Common.randInt at hr
        rw [if_neg (by omega)] at hr
        simp only at hr
        split at hr
        · simp at hr
        · revert hr
          generalize Common.randIntLoop _ _ _ _ _ = o
          cases o <;> simp
  have h1 : ∀ (n : Int) (tape : Bytes), RandomPositiveInt n tape ≠ .panic := by
    intro n tape
    unfold RandomPositiveInt
    cases hr : RandomInt (n - 1) tape with
    | ok r => simp
    | err e => simp
    | panic => exact absurd hr (h0 _ _)
  refine ⟨h0 n tape, h1 n tape, ?_, ?_⟩
  · unfold RandomCoprimeInt
    split
    · simp
    · suffices ∀ k tape, randomCoprimeLoop n k tape ≠ .panic from this _ _
      intro k
      induction k with
      | zero => intro tape; simp [randomCoprimeLoop]
      | succ k ih =>
        intro tape
        unfold randomCoprimeLoop
        cases hr : RandomInt n tape with
        | ok r => simp only; split <;> [exact ih _; (split <;> [simp; exact ih _])]
        | err e => simp
        | panic => exact absurd hr (h0 _ _)
  · unfold RandomAbsoluteRangeInt
    cases hr : RandomPositiveInt ((n + 1) * 2) tape with
    | ok r => simp
    | err e => simp
    | panic => exact absurd hr (h1 _ _)

/-! ## C65: arithmetic -/

/-- C65: `Lcm` of positive integers is their least common multiple, other arguments are refused. -/
theorem C65_lcm_exact (a b : Int) :
    Lcm a b = if 0 < a ∧ 0 < b then .ok ((Int.lcm a b : Nat) : Int) else .err .invalidInput := by
  unfold Lcm Gcd
  by_cases ha : a ≤ 0
  · rw [if_pos ha, if_neg (by omega)]
  · rw [if_neg ha]
    by_cases hb : b ≤ 0
    · rw [if_pos hb, if_neg (by omega)]
    · rw [if_neg hb, if_pos (by omega)]
      congr 1
      obtain ⟨x, rfl⟩ := Int.eq_ofNat_of_zero_le (by omega : 0 ≤ a)
      obtain ⟨y, rfl⟩ := Int.eq_ofNat_of_zero_le (by omega : 0 ≤ b)
      rw [Int.gcd_natCast_natCast, Int.lcm_natCast_natCast]
      norm_cast
      rw [Nat.lcm, Nat.div_mul_right_comm (Nat.gcd_dvd_left x y)]

theorem eulerLoop_eq (l : List Nat) (hp : ∀ p ∈ l, p.Prime) (hd : l.Nodup) (acc : Int) :
    eulerLoop acc (l.map fun (p : Nat) => (p : Int)) = .ok (acc * (Nat.totient l.prod : Nat)) := by
  induction l generalizing acc with
  | nil => simp [eulerLoop]
  | cons p t ih =>
    have hpp := hp p (by simp)
    have h2 := hpp.two_le
    simp only [List.map_cons, eulerLoop]
    rw [if_neg (by omega), ih (fun q hq => hp q (by simp [hq])) (List.nodup_cons.1 hd).2]
    congr 1
    rw [List.prod_cons]
    have hc : Nat.Coprime p t.prod := by
      rw [Nat.coprime_list_prod_right_iff]
      intro q hq
      rw [Nat.coprime_primes hpp (hp q (by simp [hq]))]
      rintro rfl
      exact (List.nodup_cons.1 hd).1 hq
    rw [Nat.totient_mul hc, Nat.totient_prime hpp]
    push_cast
    rw [Nat.cast_sub (by omega)]
    ring

/-- C65: on a non-empty list of distinct primes `EulerFunction` is Euler's totient of their product. -/
theorem C65_euler_exact (l : List Nat) (hne : l ≠ []) (hp : ∀ p ∈ l, p.Prime) (hd : l.Nodup) :
    EulerFunction (l.map fun (p : Nat) => (p : Int)) = .ok (Nat.totient l.prod : Nat) := by
  unfold EulerFunction
  rw [if_neg (by simpa using hne), eulerLoop_eq l hp hd]
  simp

/-- Non-vacuity of `C65_euler_exact`, and a repeated prime for which the result is not the totient. -/
example : EulerFunction [3, 5, 7] = .ok 48 ∧ EulerFunction [3, 3] = .ok 4 ∧ Nat.totient 9 = 6 := by decide +kernel

/-- C65: `FastMod3` is the residue modulo 3, for every non-negative number. -/
theorem C65_fastMod3 (n : Nat) : FastMod3 n = n % 3 := FastMod3_eq n

/-- C65: `EnsureRank` accepts iff `rank + 1 < threshold`, except that the largest 32-bit rank wraps round
and is accepted with every non-zero threshold. -/
theorem C65_ensureRank (rank threshold : UInt32) :
    EnsureRank rank threshold = .ok () ↔
      (rank.toNat + 1 < threshold.toNat ∨ (rank.toNat = 2 ^ 32 - 1 ∧ 0 < threshold.toNat)) := by
  unfold EnsureRank
  have hr := rank.toNat_lt
  have ht := threshold.toNat_lt
  have e : (rank + 1).toNat = (rank.toNat + 1) % 2 ^ 32 := by rw [UInt32.toNat_add]; rfl
  split
  · next h =>
    rw [UInt32.le_iff_toNat_le, e] at h
    simp only [reduceCtorEq, false_iff]
    omega
  · next h =>
    rw [UInt32.le_iff_toNat_le, e] at h
    simp only [true_iff]
    omega

/-- C65: `EnsureThreshold` accepts iff `2 ≤ threshold ≤ n`. -/
theorem C65_ensureThreshold (threshold n : UInt32) :
    EnsureThreshold threshold n = .ok () ↔ 2 ≤ threshold.toNat ∧ threshold.toNat ≤ n.toNat := by
  unfold EnsureThreshold
  split
  · next h => rw [UInt32.lt_iff_toNat_lt] at h; simp; omega
  · next h =>
    rw [UInt32.lt_iff_toNat_lt] at h
    split
    · next h2 =>
      rw [UInt32.lt_iff_toNat_lt] at h2
      have : (2 : UInt32).toNat = 2 := rfl
      simp; omega
    · next h2 =>
      rw [UInt32.lt_iff_toNat_lt] at h2
      have : (2 : UInt32).toNat = 2 := rfl
      simp; omega

/-! ## C65: byte helpers -/

/-- C65: `Xor` has the longer length, is bytewise, commutative, and self-inverse up to length. -/
theorem C65_xor (a b : Bytes) :
    (xorBytes a b).length = max a.length b.length ∧
    (∀ i, (xorBytes a b).getD i 0 = a.getD i 0 ^^^ b.getD i 0) ∧
    xorBytes a b = xorBytes b a ∧
    (b.length ≤ a.length → xorBytes (xorBytes a b) b = a) :=
  ⟨xorBytes_length a b, xorBytes_getD a b, xorBytes_comm a b, xorBytes_cancel a b⟩

/-- C65: bytes to bits and back is the identity, with eight bits per byte, each 0 or 1. -/
theorem C65_bits_round_trip (data : Bytes) :
    BitsToBytes (BytesToBits data) = .ok data ∧ (BytesToBits data).length = 8 * data.length := by
  have hl : (BytesToBits data).length = 8 * data.length := by
    unfold BytesToBits
    induction data with
    | nil => rfl
    | cons a t ih => rw [List.flatMap_cons, List.length_append, ih, byteToBits_length, List.length_cons]; omega
  refine ⟨?_, hl⟩
  unfold BitsToBytes
  rw [if_neg (by omega)]
  congr 1
  unfold BytesToBits
  clear hl
  induction data with
  | nil => rfl
  | cons a t ih => rw [List.flatMap_cons, bitsToBytesLoop_append, ih]

/-- C65: bits to bytes and back is the identity on lists of bits whose length is a multiple of eight;
other lengths are refused. -/
theorem C65_bytes_round_trip (l : List UInt8) (hb : ∀ x ∈ l, x = 0 ∨ x = 1) :
    (l.length % 8 = 0 → ∃ d, BitsToBytes l = .ok d ∧ BytesToBits d = l) ∧
    (l.length % 8 ≠ 0 → BitsToBytes l = .err .invalidInput) := by
  unfold BitsToBytes
  refine ⟨fun h => ⟨bitsToBytesLoop l, by rw [if_neg (by omega)], bits_of_bytes l h hb⟩, fun h => by rw [if_pos h]⟩

/-- C65: `ReverseByte` reverses. -/
theorem C65_reverse (s : Bytes) : ReverseByte s = s.reverse := by
  unfold ReverseByte
  apply List.ext_getElem
  · simp
  · intro i h1 h2
    simp at h1
    simp [List.getElem_reverse, List.getD_eq_getElem?_getD]
    rw [List.getElem?_eq_getElem (by omega)]
    rfl

/-- C65: `BinaryMul` and `ScalarMul` multiply by a bit. -/
theorem C65_bit_products (s : Bytes) :
    BinaryMul 0 s = List.replicate s.length 0 ∧ BinaryMul 1 s = s ∧
    (∀ x ∈ ScalarMul 0 s, x = 0) ∧ ((∀ x ∈ s, x = 0 ∨ x = 1) → ScalarMul 1 s = s) := by
  refine ⟨by simp [BinaryMul], by simp [BinaryMul], ?_, ?_⟩
  · intro x hx
    simp only [ScalarMul, List.mem_map] at hx
    obtain ⟨y, -, rfl⟩ := hx
    exact UInt8.zero_and
  · intro h
    unfold ScalarMul
    conv_rhs => rw [← List.map_id s]
    apply List.map_congr_left
    intro x hx
    rcases h x hx with rfl | rfl <;> rfl

/-! ## C65: hashing -/

/-- Message lists of Go size. -/
def SizedMsgs (salt : Bytes) (msgs : List Bytes) : Prop :=
  salt.length < 2 ^ 62 ∧ ∀ m ∈ msgs, m.length < 2 ^ 62

theorem encField_length_le (k : Nat) (b : Bytes) : (Wire.encField k b).length ≤ 20 + b.length := by
  unfold Wire.encField
  split
  · simp
  · exact Wire.encFieldRep_length_le k b

theorem anyOfAny_length (b : Bytes) (h : b.length < 2 ^ 62) : (anyOfAny b).length < 2 ^ 63 := by
  unfold anyOfAny
  rw [List.length_append]
  have h1 := encField_length_le 1 (ascii "type.googleapis.com/google.protobuf.Any")
  have h2 := encField_length_le 2 (anyValue b)
  have h3 := encField_length_le 2 b
  have h4 : (ascii "type.googleapis.com/google.protobuf.Any").length = 39 := by decide
  unfold anyValue at *
  omega

theorem encField2_inj {a b : Bytes} (ha : a.length < 2 ^ 64) (hb : b.length < 2 ^ 64)
    (h : Wire.encField 2 a = Wire.encField 2 b) : a = b :=
  any_parts_inj (u := []) ha hb (by rw [h])

theorem anyOfAny_inj {a b : Bytes} (ha : a.length < 2 ^ 62) (hb : b.length < 2 ^ 62)
    (h : anyOfAny a = anyOfAny b) : a = b := by
  unfold anyOfAny at h
  have h3 := encField_length_le 2 a
  have h4 := encField_length_le 2 b
  have := any_parts_inj (by unfold anyValue; omega) (by unfold anyValue; omega) h
  exact encField2_inj (by omega) (by omega) this

theorem hashInput_inj {s s' : Bytes} {m m' : List Bytes} (h1 : SizedMsgs s m) (h2 : SizedMsgs s' m')
    (h : hashInput s m = hashInput s' m') : s = s' ∧ m = m' := by
  have key : ∀ (s : Bytes) (m : List Bytes), SizedMsgs s m →
      Wire.parseFields (hashInput s m) =
        some ((m.map anyOfAny ++ [anyValue s]).map fun b => (1, Wire.WVal.bytes b)) := by
    intro s m hs
    unfold hashInput
    rw [← Wire.encFields_map, Wire.parseFields_enc]
    · rw [List.map_map]; rfl
    · intro p hp
      obtain ⟨b, hb, rfl⟩ := List.mem_map.1 hp
      refine ⟨by norm_num, by norm_num, ?_⟩
      rcases List.mem_append.1 hb with hb | hb
      · obtain ⟨x, hx, rfl⟩ := List.mem_map.1 hb
        have := anyOfAny_length x (hs.2 x hx)
        simp only; omega
      · rw [List.mem_singleton] at hb
        subst hb
        have h3 := encField_length_le 2 s
        have := hs.1
        unfold anyValue
        simp only; omega
  have e := key s m h1
  rw [h, key s' m' h2] at e
  have e := Option.some.inj e
  have e : m'.map anyOfAny ++ [anyValue s'] = m.map anyOfAny ++ [anyValue s] := by
    refine List.map_injective_iff.2 ?_ e
    intro a b hab
    simpa using hab
  obtain ⟨e1, e2⟩ := List.append_inj' e rfl
  have hs1 := h1.1
  have hs2 := h2.1
  refine ⟨?_, ?_⟩
  · have e2 : anyValue s' = anyValue s := by simpa using e2
    exact (encField2_inj (by omega) (by omega) e2).symm
  · have hlen : m.length = m'.length := by have := congrArg List.length e1; simpa using this.symm
    apply List.ext_getElem hlen
    intro i hi hi'
    have e3 := List.getElem_of_eq e1 (i := i) (by simpa using hi')
    rw [List.getElem_map, List.getElem_map] at e3
    exact (anyOfAny_inj (h2.2 _ (List.getElem_mem _)) (h1.2 _ (List.getElem_mem _)) e3).symm

/-- C65: `HashProtos` binds the salt and the exact list of hashed byte strings: two different inputs
with the same digest have different encodings with the same BLAKE2b digest. -/
theorem C65_hashProtos_binds (Hb : Bytes → Bytes) (s s' : Bytes) (m m' : List Bytes)
    (h1 : SizedMsgs s m) (h2 : SizedMsgs s' m') (h : HashProtos Hb s m = HashProtos Hb s' m') :
    (s = s' ∧ m = m') ∨ (hashInput s m ≠ hashInput s' m' ∧ Hb (hashInput s m) = Hb (hashInput s' m')) := by
  by_cases e : hashInput s m = hashInput s' m'
  · exact .inl (hashInput_inj h1 h2 e)
  · exact .inr ⟨e, h⟩

/-- Non-vacuity: sizes are met, and moving a byte between parts changes the hashed octets. -/
example : SizedMsgs [1] [[2], [3, 4]] ∧ hashInput [1] [[2], [3, 4]] ≠ hashInput [1] [[2, 3], [4]] := by
  refine ⟨⟨by decide, by decide⟩, by decide⟩

/-- C65: the extended hash has at most the requested number of bits, for every 32-byte hash. -/
theorem C65_extended_hash_bits (Hb : Bytes → Bytes) (hH : ∀ b, (Hb b).length = 32) (salt msg : Bytes) (n : Nat) :
    beNat (ExtnedHashOuput Hb salt msg n) < 2 ^ n := beNat_ExtnedHash_lt Hb hH salt msg n

/-- C65: the extended hash does not separate salt and message: a comma may move across the boundary. -/
theorem C65_extended_hash_ambiguous (Hb : Bytes → Bytes) (a b c : Bytes) (n : Nat) :
    ExtnedHashOuput Hb (a ++ [44] ++ b) c n = ExtnedHashOuput Hb a (b ++ [44] ++ c) n := by
  have : extBlock Hb (a ++ [44] ++ b) c = extBlock Hb a (b ++ [44] ++ c) := by
    funext i; unfold extBlock; simp [List.append_assoc]
  unfold ExtnedHashOuput
  rw [this]

/-- C65: challenges drawn from a seed lie in `[-2^l, 2^l)` with `l` the bit length of the order, and the
challenges `GetE` returns in `[-q, q]`, recomputable from the returned salt. -/
theorem C65_challenge_ranges (Hb : Bytes → Bytes) (hH : ∀ b, (Hb b).length = 32) (q : Int) (salt msg : Bytes)
    (msgs : List Bytes) (salts : Nat → Bytes) :
    (-(2 ^ bitLen q) ≤ RandomAbsoluteRangeIntBySeed Hb salt msg q ∧
      RandomAbsoluteRangeIntBySeed Hb salt msg q < 2 ^ bitLen q) ∧
    (∀ e s, GetE Hb q msgs salts = .ok (e, s) →
      -q ≤ e ∧ e ≤ q ∧ e = RandomAbsoluteRangeIntBySeed Hb s (HashProtos Hb s msgs) q) := by
  refine ⟨bySeed_range Hb hH salt msg q, fun e s h => ?_⟩
  obtain ⟨a, b, c, -⟩ := getELoop_spec _ _ _ h
  exact ⟨b, c, a⟩

/-! ## C66 -/

/-- C65: `HashProtosRejectSampling` tries at most 100 salts, in the order they are drawn (`salts 99` first), and returns the first
hash inside [0, order) with the salt that gave it; it reports an error exactly when all 100 are outside, and never crashes. -/
theorem C65_reject_sampling (Hb : Bytes → Bytes) (order : Int) (msgs : List Bytes) (salts : Nat → Bytes) :
    (∀ c salt, HashProtosRejectSampling Hb order msgs salts = .ok (c, salt) ↔
      ∃ j < 100, salt = salts (99 - j) ∧ c = HashProtosToInt Hb salt msgs ∧ 0 ≤ c ∧ c < order ∧
        ∀ i < j, ¬ (0 ≤ HashProtosToInt Hb (salts (99 - i)) msgs ∧ HashProtosToInt Hb (salts (99 - i)) msgs < order)) ∧
    (HashProtosRejectSampling Hb order msgs salts = .err .exceedMaxRetry ↔
      ∀ i < 100, ¬ (0 ≤ HashProtosToInt Hb (salts i) msgs ∧ HashProtosToInt Hb (salts i) msgs < order)) ∧
    HashProtosRejectSampling Hb order msgs salts ≠ .panic := by
  have key : ∀ k,
      (∀ c salt, rejectLoop Hb order msgs salts k = .ok (c, salt) ↔
        ∃ j < k, salt = salts (k - 1 - j) ∧ c = HashProtosToInt Hb salt msgs ∧ 0 ≤ c ∧ c < order ∧
          ∀ i < j, ¬ (0 ≤ HashProtosToInt Hb (salts (k - 1 - i)) msgs ∧ HashProtosToInt Hb (salts (k - 1 - i)) msgs < order)) ∧
      (rejectLoop Hb order msgs salts k = .err .exceedMaxRetry ↔
        ∀ i < k, ¬ (0 ≤ HashProtosToInt Hb (salts i) msgs ∧ HashProtosToInt Hb (salts i) msgs < order)) ∧
      rejectLoop Hb order msgs salts k ≠ .panic := by
    intro k
    induction k with
    | zero => refine ⟨?_, ?_, ?_⟩ <;> simp [rejectLoop]
    | succ k ih =>
      obtain ⟨i1, i2, i3⟩ := ih
      by_cases hr : 0 ≤ HashProtosToInt Hb (salts k) msgs ∧ HashProtosToInt Hb (salts k) msgs < order
      · have e : rejectLoop Hb order msgs salts (k + 1) = .ok (HashProtosToInt Hb (salts k) msgs, salts k) := by
          unfold rejectLoop; simp only; rw [InRange_ok.mpr hr]
        rw [e]
        refine ⟨fun c salt => ⟨?_, ?_⟩, ⟨by simp, fun h => absurd hr (h k (by omega))⟩, by simp⟩
        · intro h
          simp only [Res.ok.injEq, Prod.mk.injEq] at h
          obtain ⟨rfl, rfl⟩ := h
          exact ⟨0, by omega, by simp, rfl, hr.1, hr.2, fun i hi => absurd hi (by omega)⟩
        · rintro ⟨j, _, h1, h2, _, _, h3⟩
          have j0 : j = 0 := by
            by_contra hj
            exact h3 0 (by omega) (by simpa using hr)
          subst j0
          simp only [Nat.add_sub_cancel, Nat.sub_zero] at h1
          subst h1; rw [h2]
      · have e : rejectLoop Hb order msgs salts (k + 1) = rejectLoop Hb order msgs salts k := by
          conv_lhs => unfold rejectLoop
          simp only
          split
          · next h => exact absurd (InRange_ok.mp h) hr
          · rfl
        rw [e]
        refine ⟨fun c salt => ?_, ?_, i3⟩
        · rw [i1]
          constructor
          · rintro ⟨j, h0, h1, h2, h3, h4, h5⟩
            refine ⟨j + 1, by omega, ?_, h2, h3, h4, ?_⟩
            · rw [h1]; congr 1; omega
            · intro i hi
              cases i with
              | zero => simpa using hr
              | succ i =>
                have := h5 i (by omega)
                rwa [show k - 1 - i = k + 1 - 1 - (i + 1) by omega] at this
          · rintro ⟨j, h0, h1, h2, h3, h4, h5⟩
            cases j with
            | zero =>
              exfalso
              simp only [Nat.add_sub_cancel, Nat.sub_zero] at h1
              subst h1; rw [h2] at h3 h4; exact hr ⟨h3, h4⟩
            | succ j =>
              refine ⟨j, by omega, ?_, h2, h3, h4, ?_⟩
              · rw [h1]; congr 1; omega
              · intro i hi
                have := h5 (i + 1) (by omega)
                rwa [show k + 1 - 1 - (i + 1) = k - 1 - i by omega] at this
        · rw [i2]
          constructor
          · intro h i hi
            by_cases hk : i = k
            · subst hk; exact hr
            · exact h i (by omega)
          · intro h i hi; exact h i (by omega)
  exact key 100

/-- C66: the sieve rejects a candidate exactly when some prime of its table divides it or twice it plus
one. -/
theorem C66_sieve_exact (m : Nat) : sieve m = false ↔ ∃ p ∈ sievePrimes, p ∣ m ∨ p ∣ 2 * m + 1 := sieve_iff m

/-- C66: so it never rejects a safe prime above its table: if it rejects `m > 991` then `m` or `2m+1` is
composite. -/
theorem C66_sieve_keeps_primes (m : Nat) (hm : 991 < m) (h : sieve m = false) :
    ¬ (m.Prime ∧ (2 * m + 1).Prime) := by
  rintro ⟨h1, h2⟩
  obtain ⟨p, hp, hd⟩ := (sieve_iff m).1 h
  have hb : ∀ p ∈ sievePrimes, 1 < p ∧ p ≤ 991 := by decide +kernel
  have := hb p hp
  rcases hd with hd | hd
  · have := (Nat.dvd_prime h1).1 hd; omega
  · have := (Nat.dvd_prime h2).1 hd; omega

/-- C66: the table is not the full list of primes it is meant to be: candidates divisible by 313 or 547
pass it. -/
theorem C66_sieve_gaps : sieve (313 * 1063) = true ∧ sieve (547 * 1009) = true := by decide +kernel

/-- C66: for every prime `q`, passing the Fermat test to base 2 makes `2q+1` prime. -/
theorem C66_pocklington (q : Nat) (hq : q.Prime)
    (h : checkPrimeByPocklingtonCriterion (2 * q) (2 * q + 1) = true) : (2 * q + 1).Prime := by
  rw [checkPocklington_iff] at h
  apply pocklington q hq
  have : ((2 ^ (2 * q) : Nat) : ZMod (2 * q + 1)) = ((1 : Nat) : ZMod (2 * q + 1)) := by
    rw [ZMod.natCast_eq_natCast_iff]
    show 2 ^ (2 * q) % (2 * q + 1) = 1 % (2 * q + 1)
    rw [h, Nat.mod_eq_of_lt]
    have := hq.two_le; omega
  push_cast at this
  exact this

/-- C66: conversely an odd prime `2q+1` always passes. -/
theorem C66_pocklington_complete (q : Nat) (hq : 0 < q) (hp : (2 * q + 1).Prime) :
    checkPrimeByPocklingtonCriterion (2 * q) (2 * q + 1) = true := by
  rw [checkPocklington_iff]
  have : Fact (2 * q + 1).Prime := ⟨hp⟩
  have h2 : (2 : ZMod (2 * q + 1)) ≠ 0 := by
    intro h0
    have : ((2 : Nat) : ZMod (2 * q + 1)) = 0 := by exact_mod_cast h0
    rw [ZMod.natCast_eq_zero_iff] at this
    have := Nat.le_of_dvd (by norm_num) this
    omega
  have h := ZMod.pow_card_sub_one_eq_one h2
  rw [Nat.add_sub_cancel] at h
  have h3 : ((2 ^ (2 * q) : Nat) : ZMod (2 * q + 1)) = ((1 : Nat) : ZMod (2 * q + 1)) := by
    push_cast; exact h
  rw [ZMod.natCast_eq_natCast_iff] at h3
  have h4 : 2 ^ (2 * q) % (2 * q + 1) = 1 % (2 * q + 1) := h3
  rw [h4, Nat.mod_eq_of_lt (by omega)]

/-- C66: whatever the random tape, a returned pair has `P = 2Q+1`, exactly the requested bit length, and a
`Q` that passed the primality test; if that test is right about `Q`, then `P` is prime too. -/
theorem C66_search_result (isPrime : Nat → Bool) (pbits : Int) (fuel : Nat) (tape : Bytes) (P Q : Nat)
    (h : GenerateRandomSafePrime isPrime pbits fuel tape = some (.ok (P, Q))) :
    3 ≤ pbits ∧ P = 2 * Q + 1 ∧ (bitLen P : Int) = pbits ∧ isPrime Q = true ∧ (Q.Prime → P.Prime) := by
  unfold GenerateRandomSafePrime at h
  split at h
  · simp at h
  · next hp =>
    obtain ⟨h1, h2, -⟩ := safePrimeLoop_spec (by omega) _ _ _ _ h
    unfold accepts at h2
    simp only [Bool.and_eq_true, decide_eq_true_eq] at h2
    obtain ⟨⟨⟨-, h3⟩, h4⟩, h5⟩ := h2
    refine ⟨by omega, h1, ?_, h5, ?_⟩
    · rw [h1, h4]; omega
    · intro hq; rw [h1]; exact C66_pocklington Q hq h3

/-- C66: sizes of 3 to 10 bits, although not refused, never produce a result: the sieve rejects every
candidate of that size, so the call keeps drawing until the random reader fails. -/
theorem C66_small_sizes_never_return (isPrime : Nat → Bool) (pbits : Int) (h10 : pbits ≤ 10) (fuel : Nat)
    (tape : Bytes) (P Q : Nat) :
    GenerateRandomSafePrime isPrime pbits fuel tape ≠ some (.ok (P, Q)) := by
  intro h
  obtain ⟨hp3, h1, h2, -⟩ := C66_search_result _ _ _ _ _ _ h
  unfold GenerateRandomSafePrime at h
  rw [if_neg (by omega)] at h
  obtain ⟨-, h4, h5⟩ := safePrimeLoop_spec (by omega) _ _ _ _ h
  have hlt := Common.lt_two_pow_bitLen P
  have hP : P < 1024 := by
    refine lt_of_lt_of_le hlt ?_
    have : bitLen (P : Int) ≤ 10 := by omega
    calc 2 ^ bitLen (P : Int) ≤ 2 ^ 10 := Nat.pow_le_pow_right (by norm_num) this
      _ = 1024 := rfl
  unfold accepts at h4
  simp only [Bool.and_eq_true] at h4
  have hs := h4.1.1.1
  have hall : ∀ q, q < 512 → q % 6 = 5 → sieve q = false := by decide +kernel
  have := hall Q (by omega) h5
  rw [this] at hs
  exact absurd hs (by decide)

/-- Non-vacuity: an 11-bit search on a concrete tape returns the safe prime 2039 = 2·1019 + 1. -/
example : GenerateRandomSafePrime (fun q => q == 1019) 11 1 [0x03, 0xfb] = some (.ok (2039, 1019)) := by
  decide +kernel

end Tss.Alice
