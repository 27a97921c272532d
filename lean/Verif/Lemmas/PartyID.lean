import Verif.Model.PartyID
import Verif.Lemmas.Go
import Mathlib.Data.List.Perm.Basic
import Mathlib.Data.List.Pairwise
import Mathlib.Data.List.Sort

namespace Tss.PartyID
open Tss

theorem insertRev_perm (x : PartyID) : ∀ l, List.Perm (insertRev x l) (x :: l)
  | [] => List.Perm.refl _
  | y :: t => by
    unfold insertRev
    split
    · exact ((insertRev_perm x t).cons y).trans (List.Perm.swap x y t)
    · exact List.Perm.refl _

theorem insertRev_sorted (x : PartyID) : ∀ l, l.Pairwise (fun a b => b.keyInt ≤ a.keyInt) →
    (insertRev x l).Pairwise (fun a b => b.keyInt ≤ a.keyInt)
  | [], _ => by simp [insertRev]
  | y :: t, h => by
    unfold insertRev
    rw [List.pairwise_cons] at h
    split
    · next hl =>
      rw [List.pairwise_cons]
      refine ⟨?_, insertRev_sorted x t h.2⟩
      intro z hz
      rcases List.mem_cons.mp ((insertRev_perm x t).mem_iff.mp hz) with rfl | hz
      · simpa [less] using hl
      · exact h.1 z hz
    · next hl =>
      have hxy : y.keyInt ≤ x.keyInt := by
        simp only [less, decide_eq_true_eq, not_le] at hl
        omega
      rw [List.pairwise_cons]
      refine ⟨?_, List.pairwise_cons.mpr h⟩
      intro z hz
      rcases List.mem_cons.mp hz with rfl | hz
      · exact hxy
      · exact le_trans (h.1 z hz) hxy

theorem foldl_insert (l : List PartyID) : ∀ acc : List PartyID,
    acc.Pairwise (fun a b => b.keyInt ≤ a.keyInt) →
    List.Perm (l.foldl (fun acc x => insertRev x acc) acc) (l ++ acc) ∧
    (l.foldl (fun acc x => insertRev x acc) acc).Pairwise (fun a b => b.keyInt ≤ a.keyInt) := by
  induction l with
  | nil => intro acc h; exact ⟨List.Perm.refl _, h⟩
  | cons x t ih =>
    intro acc h
    obtain ⟨h1, h2⟩ := ih (insertRev x acc) (insertRev_sorted x acc h)
    refine ⟨?_, h2⟩
    refine h1.trans ?_
    refine (List.Perm.append_left t (insertRev_perm x acc)).trans ?_
    exact List.perm_middle

theorem insertionSort_perm (l : List PartyID) : List.Perm (insertionSort l) l := by
  unfold insertionSort
  refine (List.reverse_perm _).trans ?_
  simpa using (foldl_insert l [] List.Pairwise.nil).1

theorem insertionSort_sorted (l : List PartyID) :
    (insertionSort l).Pairwise (fun a b => a.keyInt ≤ b.keyInt) := by
  unfold insertionSort
  rw [List.pairwise_reverse]
  exact (foldl_insert l [] List.Pairwise.nil).2

/-- A permutation sorted by an injective key is unique. -/
theorem sorted_perm_unique {a b : List PartyID} (hp : List.Perm a b)
    (ha : a.Pairwise (fun x y => x.keyInt ≤ y.keyInt)) (hb : b.Pairwise (fun x y => x.keyInt ≤ y.keyInt))
    (hinj : ∀ x ∈ a, ∀ y ∈ a, x.keyInt = y.keyInt → x = y) : a = b := by
  refine List.Perm.eq_of_pairwise (le := fun x y => x.keyInt ≤ y.keyInt) ?_ ha hb hp
  intro x y hx hy h1 h2
  exact hinj x hx y (hp.mem_iff.mpr hy) (le_antisymm h1 h2)

theorem assignIdx_length : ∀ (i : Int) (l : List PartyID), (assignIdx i l).length = l.length
  | _, [] => rfl
  | i, p :: t => by simp [assignIdx, assignIdx_length (i + 1) t]

theorem assignIdx_getElem? : ∀ (i : Int) (l : List PartyID) (k : Nat),
    (assignIdx i l)[k]? = l[k]?.map fun p => { p with index := i + k }
  | _, [], _ => by simp [assignIdx]
  | i, p :: t, 0 => by simp [assignIdx]
  | i, p :: t, k + 1 => by
    simp only [assignIdx, List.getElem?_cons_succ, assignIdx_getElem? (i + 1) t k]
    congr 1
    funext q
    congr 1
    push_cast
    omega

theorem assignIdx_keys (i : Int) (l : List PartyID) : Keys (assignIdx i l) = Keys l := by
  induction l generalizing i with
  | nil => rfl
  | cons p t ih =>
    simp only [assignIdx, Keys, List.map_cons] at *
    rw [ih]
    rfl

end Tss.PartyID
