import Verif.Lemmas.PartyID
/-
Properties C08, C09 (tss/party_id.go).
-/
namespace Tss.PartyID
open Tss

/-- What distinguishes a party apart from its index. -/
def ident (p : PartyID) : String × String × Option Bytes := (p.id, p.moniker, p.key)

/-! ## C08 -/

/-- C08: the result holds the same parties, in ascending key order, indexed 0,1,2,... (or from `startAt`). -/
theorem C08_sorted_permutation_indexed (ids : List PartyID) (startAt : Option Int) :
    List.Perm ((SortPartyIDs ids startAt).map ident) (ids.map ident) ∧
    (Keys (SortPartyIDs ids startAt)).Pairwise (· ≤ ·) ∧
    (∀ (k : Nat) (p : PartyID), (SortPartyIDs ids startAt)[k]? = some p → p.index = startAt.getD 0 + k) := by
  refine ⟨?_, ?_, ?_⟩
  · have : ∀ (i : Int) (l : List PartyID), (assignIdx i l).map ident = l.map ident := by
      intro i l
      induction l generalizing i with
      | nil => rfl
      | cons p t ih => simp only [assignIdx, List.map_cons, ih]; rfl
    unfold SortPartyIDs
    rw [this]
    exact (insertionSort_perm ids).map _
  · unfold SortPartyIDs
    rw [assignIdx_keys, Keys, List.pairwise_map]
    exact insertionSort_sorted ids
  · intro k p h
    unfold SortPartyIDs at h
    rw [assignIdx_getElem?] at h
    cases hk : (insertionSort ids)[k]? with
    | none => simp [hk] at h
    | some q => simp only [hk, Option.map_some, Option.some.injEq] at h; rw [← h]

/-- C08: for distinct keys the outcome does not depend on the order in which the parties are listed:
all participants that list the same parties agree on every index. -/
theorem C08_order_independent (a b : List PartyID) (startAt : Option Int) (h : List.Perm a b)
    (hd : (Keys a).Nodup) : SortPartyIDs a startAt = SortPartyIDs b startAt := by
  unfold SortPartyIDs
  congr 1
  have hp : List.Perm (insertionSort a) (insertionSort b) :=
    (insertionSort_perm a).trans (h.trans (insertionSort_perm b).symm)
  refine sorted_perm_unique hp (insertionSort_sorted a) (insertionSort_sorted b) ?_
  intro x hx y hy e
  have hx' := (insertionSort_perm a).mem_iff.mp hx
  have hy' := (insertionSort_perm a).mem_iff.mp hy
  exact List.inj_on_of_nodup_map hd hx' hy' e

/-- C08: the index is the rank: party `k` has exactly `k` keys below its own. -/
theorem C08_index_is_rank (ids : List PartyID) (hd : (Keys ids).Nodup) (k : Nat) (p : PartyID)
    (h : (SortPartyIDs ids none)[k]? = some p) :
    p.index = (ids.filter fun q => q.keyInt < p.keyInt).length := by
  obtain ⟨-, -, hidx⟩ := C08_sorted_permutation_indexed ids none
  rw [hidx k p h]
  simp only [Option.getD_none, Int.zero_add]
  congr 1
  unfold SortPartyIDs at h
  rw [assignIdx_getElem?] at h
  cases hk : (insertionSort ids)[k]? with
  | none => simp [hk] at h
  | some q =>
    simp only [hk, Option.map_some, Option.some.injEq] at h
    have hkey : p.keyInt = q.keyInt := by rw [← h]; rfl
    have hperm := insertionSort_perm ids
    have hlen := (hperm.filter fun r => decide (r.keyInt < p.keyInt)).length_eq
    rw [← hlen]
    have hs := insertionSort_sorted ids
    have hnd : (Keys (insertionSort ids)).Nodup := (hperm.map keyInt).nodup_iff.mpr hd
    generalize insertionSort ids = l at *
    have hkl : k < l.length := by
      by_contra hc
      rw [List.getElem?_eq_none (by omega)] at hk
      simp at hk
    have hstrict : l.Pairwise (fun a b => a.keyInt < b.keyInt) := by
      have h2 : l.Pairwise (fun a b => a.keyInt ≠ b.keyInt) := by
        have := hnd; rw [Keys, List.Nodup, List.pairwise_map] at this; exact this
      exact List.Pairwise.imp₂ (fun a b h1 h2 => lt_of_le_of_ne h1 h2) hs h2
    have hq : l[k] = q := by
      rw [List.getElem?_eq_getElem hkl] at hk; simpa using hk
    have e : l.filter (fun r => decide (r.keyInt < p.keyInt)) = l.take k := by
      rw [List.pairwise_iff_getElem] at hstrict
      have hpk : p.keyInt = l[k].keyInt := by rw [hkey, hq]
      generalize p.keyInt = pk at hpk
      conv_lhs => rw [← List.take_append_drop k l, List.filter_append]
      have h1 : (l.take k).filter (fun r => decide (r.keyInt < pk)) = l.take k := by
        rw [hpk]
        rw [List.filter_eq_self]
        intro r hr
        obtain ⟨i, hi, rfl⟩ := List.getElem_of_mem hr
        simp only [List.length_take] at hi
        simp only [List.getElem_take, decide_eq_true_eq]
        exact hstrict i k (by omega) hkl (by omega)
      have h2 : (l.drop k).filter (fun r => decide (r.keyInt < pk)) = [] := by
        rw [hpk]
        rw [List.filter_eq_nil_iff]
        intro r hr
        obtain ⟨i, hi, rfl⟩ := List.getElem_of_mem hr
        simp only [List.length_drop] at hi
        simp only [List.getElem_drop, decide_eq_true_eq, not_lt]
        rcases Nat.eq_zero_or_pos i with rfl | hpos
        · simp
        · exact le_of_lt (hstrict k (k + i) hkl (by omega) (by omega))
      rw [h1, h2, List.append_nil]
    rw [e, List.length_take]
    omega

/-- C08: whatever algorithm sorts the list: any ascending rearrangement of parties with distinct keys is
the one of the model.  (So the model's insertion sort stands for Go's sort of any length.) -/
theorem C08_algorithm_irrelevant (ids out : List PartyID) (hd : (Keys ids).Nodup)
    (hp : List.Perm out ids) (hs : (Keys out).Pairwise (· ≤ ·)) : assignIdx 0 out = SortPartyIDs ids none := by
  unfold SortPartyIDs
  simp only [Option.getD_none]
  congr 1
  refine sorted_perm_unique (hp.trans (insertionSort_perm ids).symm) ?_ (insertionSort_sorted ids) ?_
  · rw [Keys, List.pairwise_map] at hs; exact hs
  · intro x hx y hy e
    exact List.inj_on_of_nodup_map hd (hp.mem_iff.mp hx) (hp.mem_iff.mp hy) e

/-- Parties built from integers `k` and `-k` get the same key, so their keys are not distinct. -/
theorem C08_sign_collision (i m i' m' : String) (k : Int) (p q : PartyID)
    (hp : PartyID.new i m (some k) = some p) (hq : PartyID.new i' m' (some (-k)) = some q) :
    p.keyInt = q.keyInt ∧ p.keyInt = |k| := by
  simp only [PartyID.new, Option.map_some, Option.some.injEq] at hp hq
  subst hp hq
  simp [keyInt]

/-- Non-vacuity: three parties listed in two orders. -/
def exP (n : String) (k : Int) : PartyID := { id := n, moniker := n, key := some (intBytes k), index := -1 }

example : (Keys [exP "a" 300, exP "b" 2, exP "c" 17]).Nodup ∧
    SortPartyIDs [exP "a" 300, exP "b" 2, exP "c" 17] none =
      SortPartyIDs [exP "c" 17, exP "a" 300, exP "b" 2] none ∧
    (SortPartyIDs [exP "a" 300, exP "b" 2, exP "c" 17] none).map (fun p => (p.id, p.index)) =
      [("b", 0), ("c", 1), ("a", 2)] := by decide

/-! ## C09 -/

/-- C09: `FindByKey` finds the first party with the key, and nothing exactly when there is none. -/
theorem C09_findByKey (key : Int) (l : List PartyID) :
    (FindByKey key l = none ↔ ∀ p ∈ l, p.keyInt ≠ key) ∧
    (∀ p, FindByKey key l = some p ↔
      ∃ a b, l = a ++ p :: b ∧ p.keyInt = key ∧ ∀ q ∈ a, q.keyInt ≠ key) := by
  constructor
  · induction l with
    | nil => simp [FindByKey]
    | cons q t ih =>
      unfold FindByKey
      split
      · next h => simp [h]
      · next h => rw [ih]; simp [h]
  · intro p
    induction l with
    | nil => simp [FindByKey]
    | cons q t ih =>
      unfold FindByKey
      split
      · next h =>
        constructor
        · intro e
          simp only [Option.some.injEq] at e
          subst e
          exact ⟨[], t, rfl, h, by simp⟩
        · rintro ⟨a, b, e, hk, ha⟩
          cases a with
          | nil => simp only [List.nil_append, List.cons.injEq] at e; rw [e.1]
          | cons x a =>
            simp only [List.cons_append, List.cons.injEq] at e
            exact absurd (e.1 ▸ h) (ha x (by simp))
      · next h =>
        rw [ih]
        constructor
        · rintro ⟨a, b, e, hk, ha⟩
          exact ⟨q :: a, b, by simp [e], hk, by simpa using ⟨h, ha⟩⟩
        · rintro ⟨a, b, e, hk, ha⟩
          cases a with
          | nil =>
            simp only [List.nil_append, List.cons.injEq] at e
            exact absurd (e.1 ▸ hk) h
          | cons x a =>
            simp only [List.cons_append, List.cons.injEq] at e
            exact ⟨a, b, e.2, hk, fun y hy => ha y (by simp [hy])⟩

/-- C09: `Exclude` keeps exactly the parties with another key, in order. -/
theorem C09_exclude (x : PartyID) (l : List PartyID) :
    List.Sublist (Exclude x l) l ∧ (∀ p, p ∈ Exclude x l ↔ p ∈ l ∧ p.keyInt ≠ x.keyInt) ∧
    Exclude x l = l.filter (fun p => decide (p.keyInt ≠ x.keyInt)) := by
  have e : Exclude x l = l.filter (fun p => decide (p.keyInt ≠ x.keyInt)) := by
    induction l with
    | nil => rfl
    | cons q t ih =>
      unfold Exclude
      split
      · next h => simp [ih, h]
      · next h => simp [ih, h]
  refine ⟨e ▸ List.filter_sublist, ?_, e⟩
  intro p
  rw [e, List.mem_filter]
  simp

/-- C09: the basic validity test. -/
theorem C09_validateBasic (p : Option PartyID) :
    ValidateBasic p = true ↔ ∃ q, p = some q ∧ q.key ≠ none ∧ 0 ≤ q.index := by
  cases p with
  | none => simp [ValidateBasic]
  | some q => cases hk : q.key <;> simp [ValidateBasic, hk]

example : FindByKey 17 [exP "a" 300, exP "c" 17, exP "d" 17] = some (exP "c" 17) ∧
    Exclude (exP "z" 17) [exP "a" 300, exP "c" 17, exP "d" 17] = [exP "a" 300] := by decide

end Tss.PartyID
