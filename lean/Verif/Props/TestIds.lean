import Verif.Model.TestIds
import Verif.Props.PartyID
import Verif.Props.Common
import Mathlib.Order.Interval.Finset.Nat
/-
C125: mock party ids.
-/
namespace Tss.PartyID
open Tss

/-! ### Specification -/

/-- The `k`-th of the parties the documentation promises: numbered from `s + 1` on, index `s + k`, key counted up to the number drawn. -/
def spec.party (key count s : Int) (k : Nat) : PartyID :=
  { id := toString (s + k + 1), moniker := "P[" ++ toString (s + k + 1) ++ "]",
    key := some (intBytes (key - count + s + k)), index := s + k }

/-! ### Proofs -/

theorem loop_getElem? (key count : Int) : ∀ (n : Nat) (i : Int) (k : Nat), (testIdsLoop key count n i)[k]? =
    if k < n then some (spec.party key count i k) else none
  | 0, i, k => by simp [testIdsLoop]
  | n + 1, i, 0 => by
    have e : key - (count - i) = key - count + i := by omega
    simp [testIdsLoop, spec.party, e]
  | n + 1, i, k + 1 => by
    rw [testIdsLoop, List.getElem?_cons_succ, loop_getElem? key count n (i + 1) k]
    have e : spec.party key count (i + 1) k = spec.party key count i (k + 1) := by
      unfold spec.party
      have e1 : i + 1 + (k : Int) = i + ((k + 1 : Nat) : Int) := by push_cast; omega
      have e2 : key - count + (i + 1) + (k : Int) = key - count + i + ((k + 1 : Nat) : Int) := by push_cast; omega
      rw [e1, e2]
    rw [e]
    simp

theorem loop_eq (key count : Int) (n : Nat) (i : Int) : testIdsLoop key count n i = (List.range n).map (spec.party key count i) := by
  apply List.ext_getElem?
  intro k
  rw [loop_getElem?, List.getElem?_map]
  by_cases h : k < n
  · rw [if_pos h, List.getElem?_range h]; rfl
  · rw [if_neg h, List.getElem?_eq_none (by simpa using h)]; rfl

theorem party_keyInt (key count s : Int) (k : Nat) : (spec.party key count s k).keyInt = |key - count + s + k| := by
  simp [spec.party, keyInt]

theorem assignIdx_same (key count s : Int) : ∀ (l : List PartyID) (i : Int), (∀ (k : Nat) p, l[k]? = some p → p.index = i + k) →
    assignIdx i l = l
  | [], _, _ => rfl
  | p :: t, i, h => by
    have h0 := h 0 p rfl
    have hp : ({ p with index := i } : PartyID) = p := by
      cases p; simp at h0; simp [h0]
    rw [assignIdx, hp, assignIdx_same key count s t (i + 1) (fun k q hq => by
      have := h (k + 1) q (by simpa using hq)
      push_cast at this; omega)]

/-- **C125.** If the number drawn is at least the count (less the start index), the result is: `count` parties, the `k`-th of them
named `s+k+1` and `P[s+k+1]`, with index `s+k` and the key `key - count + s + k`; the keys go up by one. -/
theorem C125_parties (key count : Int) (startAt : Option Int) (hc : 0 ≤ count) (hk : count - startAt.getD 0 ≤ key) :
    testIdsFor key count startAt = some ((List.range count.toNat).map (spec.party key count (startAt.getD 0))) ∧
    (∀ k : Nat, (spec.party key count (startAt.getD 0) k).keyInt = key - count + startAt.getD 0 + k) := by
  have hkey : ∀ k : Nat, (spec.party key count (startAt.getD 0) k).keyInt = key - count + startAt.getD 0 + k := by
    intro k
    rw [party_keyInt, abs_of_nonneg (by omega)]
  refine ⟨?_, hkey⟩
  unfold testIdsFor
  rw [if_neg (by omega), loop_eq]
  congr 1
  obtain ⟨s, hs0⟩ : ∃ s, startAt.getD 0 = s := ⟨_, rfl⟩
  rw [hs0] at hkey ⊢
  set l := (List.range count.toNat).map (spec.party key count s) with hl
  have hkeys : Keys l = (List.range count.toNat).map fun k : Nat => key - count + s + k := by
    rw [hl, Keys, List.map_map]
    exact List.map_congr_left fun k _ => hkey k
  have hd : (Keys l).Nodup := by
    rw [hkeys]
    exact List.nodup_range.map fun a b h => by simpa using h
  have hs : (Keys l).Pairwise (· ≤ ·) := by
    rw [hkeys, List.pairwise_map]
    exact List.pairwise_lt_range.imp fun {a b} h => by omega
  have e : insertionSort l = l := by
    refine sorted_perm_unique (insertionSort_perm l) (insertionSort_sorted l) ?_ ?_
    · rw [Keys, List.pairwise_map] at hs; exact hs
    · intro x hx y hy e
      exact List.inj_on_of_nodup_map hd ((insertionSort_perm l).mem_iff.1 hx) ((insertionSort_perm l).mem_iff.1 hy) e
  unfold SortPartyIDs
  rw [hs0, e]
  refine assignIdx_same key count s l s ?_
  intro k p hp
  rw [hl, List.getElem?_map] at hp
  obtain ⟨j, hj, rfl⟩ := Option.map_eq_some_iff.1 hp
  have hkl : k < count.toNat := by
    by_contra hn
    rw [List.getElem?_eq_none (by simpa using hn)] at hj
    cases hj
  rw [List.getElem?_range hkl] at hj
  injection hj with hj
  subst hj
  rfl

/-- The keys of the result, up to order. -/
theorem keys_perm (key count : Int) (startAt : Option Int) (l : List PartyID) (h : testIdsFor key count startAt = some l) :
    0 ≤ count ∧ List.Perm (Keys l) ((List.range count.toNat).map fun k : Nat => |key - count + startAt.getD 0 + k|) := by
  unfold testIdsFor at h
  split at h
  · simp at h
  · next hc =>
    injection h with h
    subst h
    refine ⟨by omega, ?_⟩
    unfold SortPartyIDs
    rw [assignIdx_keys, loop_eq]
    refine ((insertionSort_perm _).map keyInt).trans ?_
    rw [List.map_map]
    refine List.Perm.of_eq (List.map_congr_left fun k _ => party_keyInt ..)

/-- **C125.** The keys are distinct exactly if the number drawn is at least the count less the start
index, or it is at most 1 less the start index. In between two parties share a key, as keys lose the sign. -/
theorem C125_distinct_iff (key count : Int) (startAt : Option Int) (l : List PartyID) (h : testIdsFor key count startAt = some l) :
    (Keys l).Nodup ↔ count - startAt.getD 0 ≤ key ∨ key ≤ 1 - startAt.getD 0 := by
  obtain ⟨hc, hp⟩ := keys_perm key count startAt l h
  rw [hp.nodup_iff]
  generalize startAt.getD 0 = s at hp
  rw [List.nodup_map_iff_inj_on List.nodup_range]
  constructor
  · intro hi
    by_contra hn
    push Not at hn
    obtain ⟨h1, h2⟩ := hn
    have e1 := hi (count - s - key - 1).toNat (by rw [List.mem_range]; omega) (count - s - key + 1).toNat (by rw [List.mem_range]; omega) (by
      rw [Int.toNat_of_nonneg (by omega), Int.toNat_of_nonneg (by omega)]
      rw [show key - count + s + (count - s - key - 1) = -1 by ring, show key - count + s + (count - s - key + 1) = 1 by ring]
      rfl)
    omega
  · rintro hor x hx y hy e
    rw [List.mem_range] at hx hy
    rcases abs_eq_abs.1 e with e | e <;> omega

/-- **C125.** Counting: of the `2^256 - 1` numbers that can be drawn exactly `count - 2` give two parties the same key (no start
index, two parties or more); all results are otherwise as documented. -/
theorem C125_bad_draws (count : Nat) (h2 : 2 ≤ count) (hc : count < 2 ^ 256) :
    ((Finset.range (2 ^ 256 - 1)).filter fun key : Nat => ∃ l, testIdsFor key count none = some l ∧ ¬ (Keys l).Nodup).card = count - 2 := by
  have e : ((Finset.range (2 ^ 256 - 1)).filter fun key : Nat => ∃ l, testIdsFor key count none = some l ∧ ¬ (Keys l).Nodup) =
      Finset.Ico 2 count := by
    ext key
    rw [Finset.mem_filter, Finset.mem_range, Finset.mem_Ico]
    generalize (2 : Nat) ^ 256 = B at hc
    constructor
    · rintro ⟨-, l, hl, hn⟩
      rw [C125_distinct_iff _ _ _ l hl] at hn
      simp only [Option.getD_none] at hn
      omega
    · rintro ⟨h3, h4⟩
      obtain ⟨l, hl⟩ : ∃ l, testIdsFor (key : Int) (count : Int) none = some l := by
        unfold testIdsFor; rw [if_neg (by omega)]; exact ⟨_, rfl⟩
      refine ⟨by omega, l, hl, ?_⟩
      rw [C125_distinct_iff _ _ _ l hl]
      simp only [Option.getD_none]
      omega
  rw [e, Nat.card_Ico]

/-- **C125.** Each number below `2^256 - 1` is drawn for some state of the random source, and no other is; a result is the one for the
number drawn. -/
theorem C125_draw (count : Int) (startAt : Option Int) (tape : Bytes) :
    (∀ l rest, GenerateTestPartyIDs count startAt tape = .ok (l, rest) →
      ∃ key : Int, 0 ≤ key ∧ key < 2 ^ 256 - 1 ∧ testIdsFor key count startAt = some l) ∧
    (count < 0 → GenerateTestPartyIDs count startAt tape = .panic) ∧
    (∀ key : Nat, key < 2 ^ 256 - 1 → 0 ≤ count → ∃ pre l, GenerateTestPartyIDs count startAt (pre ++ tape) = .ok (l, tape) ∧
      testIdsFor key count startAt = some l) := by
  refine ⟨?_, ?_, ?_⟩
  · intro l rest h
    unfold GenerateTestPartyIDs at h
    split at h
    · cases h
    · cases hm : Common.MustGetRandomInt 256 tape with
      | ok r =>
        obtain ⟨key, rest'⟩ := r
        rw [hm] at h
        have hr := Common.MustGetRandomInt_range hm
        dsimp only at h
        cases ht : testIdsFor key count startAt with
        | none => rw [ht] at h; cases h
        | some l' =>
          rw [ht] at h
          injection h with h
          injection h with h3 h4
          exact ⟨key, hr.2.2.1, hr.2.2.2, h3 ▸ ht⟩
      | err u => rw [hm] at h; cases h
      | panic => rw [hm] at h; cases h
  · intro h
    unfold GenerateTestPartyIDs
    rw [if_pos h]
  · intro key hk hc
    obtain ⟨pre, hp⟩ := Common.MustGetRandomInt_reach 256 key (by decide) (by decide) hk tape
    obtain ⟨l, hl⟩ : ∃ l, testIdsFor (key : Int) count startAt = some l := by
      unfold testIdsFor; rw [if_neg (by omega)]; exact ⟨_, rfl⟩
    refine ⟨pre, l, ?_, hl⟩
    unfold GenerateTestPartyIDs
    have hp' : Common.MustGetRandomInt 256 (pre ++ tape) = .ok ((key : Int), tape) := hp
    rw [if_neg (by omega), hp']
    dsimp only
    rw [hl]

/-- Non-vacuity: three parties for a number that is large enough, and a shared key for one that is not. -/
theorem C125_case : testIdsFor 1000 3 none = some [⟨"1", "P[1]", some [3, 229], 0⟩, ⟨"2", "P[2]", some [3, 230], 1⟩, ⟨"3", "P[3]", some [3, 231], 2⟩] ∧
    (testIdsFor 2 3 none).map Keys = some [0, 1, 1] := by
  decide +kernel

end Tss.PartyID
