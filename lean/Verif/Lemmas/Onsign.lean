import Verif.Model.OnsignOps
import Verif.Lemmas.Keygen
import Verif.Lemmas.RangeProofs
/-! Lemmas about the signing model: registry, finish, frame. -/
namespace Tss.Onsign
open Tss Text Wire RangeProofs

@[simp] theorem set_same (r : Reg) (key : Bytes) (p : Option Party) : r.set key p key = p := by simp [Reg.set]

theorem set_other (r : Reg) {key k : Bytes} (p : Option Party) (h : k ≠ key) : r.set key p k = r k := by
  simp [Reg.set, h]

theorem set_self (r : Reg) (key : Bytes) (p : Party) (h : r key = some p) : r.set key (some p) = r := by
  funext k
  by_cases hk : k = key
  · subst hk; simp [h]
  · exact set_other r _ hk

theorem withParty_none {α : Type} {r : Reg} {key : Bytes} (nf : Err) (f : Party → Res Err α × Party) (h : r key = none) :
    withParty nf r key f = (.err nf, r) := by simp [withParty, h]

theorem withParty_some {α : Type} {r : Reg} {key : Bytes} {p : Party} (nf : Err) (f : Party → Res Err α × Party)
    (h : r key = some p) : withParty nf r key f = ((f p).1, r.set key (some (f p).2)) := by simp [withParty, h]

theorem withParty_other {α : Type} (nf : Err) (r : Reg) {key k : Bytes} (f : Party → Res Err α × Party) (h : k ≠ key) :
    (withParty nf r key f).2 k = r k := by
  unfold withParty
  split
  · rfl
  · exact set_other r _ h

/-- Creation: the two shapes of outcome. -/
theorem new_cases (e : Env) (r : Reg) (key : Bytes) (a : NewArgs) :
    (∃ o, o ≠ .ok () ∧ NewLocalParty e r key a = (o, r)) ∨
    (∃ uIds kb d keys m, 0 ≤ a.partyCount ∧ Keygen.buildIds a.pIDs 0 a.partyCount.toNat = some uIds ∧
      (0 ≤ a.partyIndex ∧ a.partyIndex < (PartyID.SortPartyIDs uIds none).length) ∧
      b64Decode a.keyData = some kb ∧ e.jsonDec kb = some d ∧
      prepareKeys e a.partyIndex.toNat a.partyCount.toNat (PartyID.SortPartyIDs uIds none) a.refresh a.path d = .ok keys ∧
      hexDecode a.msg = some m ∧
      NewLocalParty e r key a = (.ok (), r.set key (some (freshParty a.partyCount.toNat a.partyIndex.toNat
        (PartyID.SortPartyIDs uIds none) keys (beNat m))))) := by
  unfold NewLocalParty
  by_cases hc : a.partyCount < 0
  · exact .inl ⟨.panic, by simp, by simp [hc]⟩
  simp only [hc, if_false]
  cases hb : Keygen.buildIds a.pIDs 0 a.partyCount.toNat with
  | none => exact .inl ⟨.panic, by simp, rfl⟩
  | some uIds =>
    simp only
    by_cases hi : 0 ≤ a.partyIndex ∧ a.partyIndex < (PartyID.SortPartyIDs uIds none).length
    · rw [if_pos hi]
      cases hk : b64Decode a.keyData with
      | none => exact .inl ⟨_, by simp, rfl⟩
      | some kb =>
        simp only
        cases hj : e.jsonDec kb with
        | none => exact .inl ⟨_, by simp, rfl⟩
        | some d =>
          simp only
          cases hp : prepareKeys e a.partyIndex.toNat a.partyCount.toNat (PartyID.SortPartyIDs uIds none) a.refresh
              a.path d with
          | err er => exact .inl ⟨_, by simp, rfl⟩
          | panic => exact .inl ⟨_, by simp, rfl⟩
          | ok keys =>
            simp only
            cases hm : hexDecode a.msg with
            | none => exact .inl ⟨_, by simp, rfl⟩
            | some m => exact .inr ⟨uIds, kb, d, keys, m, by omega, rfl, hi, rfl, hj, hp, rfl, rfl⟩
    · rw [if_neg hi]
      exact .inl ⟨.panic, by simp, rfl⟩

/-- Every exported call leaves the entries of other keys alone. -/
theorem run_other (e : Env) (op : Op) (r : Reg) (k : Bytes) (h : k ≠ op.key) : (op.run e r).2 k = r k := by
  cases op with
  | new key a =>
    show (NewLocalParty e r key a).2 k = r k
    rcases new_cases e r key a with ⟨o, -, h1⟩ | ⟨_, _, _, _, _, -, -, -, -, -, -, -, h1⟩ <;> rw [h1]
    exact set_other r _ h
  | remove key =>
    show (RemoveSignParty r key).2 k = r k
    unfold RemoveSignParty
    split
    · rfl
    · exact set_other r _ h
  | _ => exact withParty_other _ r _ h

theorem finish_ok_iff (k : Nat) (l : List Bytes) : finish k l = .ok () ↔ ∀ j, j < l.length → l.getD j [] ≠ [] := by
  induction l generalizing k with
  | nil => simp [finish]
  | cons m t ih =>
    simp only [finish]
    by_cases hm : m.length = 0
    · have hm' : m = [] := List.length_eq_zero_iff.mp hm
      simp only [hm, if_true]
      simp only [reduceCtorEq, false_iff, not_forall]
      exact ⟨0, by simp, by simp [hm']⟩
    · have hm' : m ≠ [] := fun e => hm (by simp [e])
      simp only [hm, if_false]
      rw [ih]
      constructor
      · intro h j hj
        cases j with
        | zero => simpa using hm'
        | succ j => simpa using h j (by simpa using hj)
      · intro h j hj
        simpa using h (j + 1) (by simpa using hj)

theorem finish_not_ok (k : Nat) (l : List Bytes) :
    finish k l = .ok () ∨ ∃ j, j < l.length ∧ finish k l = .err (.msgNull (k + j)) ∧ l.getD j [] = [] ∧
      ∀ i, i < j → l.getD i [] ≠ [] := by
  induction l generalizing k with
  | nil => exact .inl rfl
  | cons m t ih =>
    simp only [finish]
    by_cases hm : m.length = 0
    · have hm' : m = [] := List.length_eq_zero_iff.mp hm
      exact .inr ⟨0, by simp, by simp [hm], by simp [hm'], by simp⟩
    · have hm' : m ≠ [] := fun e => hm (by simp [e])
      simp only [hm, if_false]
      rcases ih (k + 1) with h | ⟨j, h1, h2, h3, h4⟩
      · exact .inl h
      · refine .inr ⟨j + 1, by simpa using h1, by rw [h2]; congr 2; omega, by simpa using h3, ?_⟩
        intro i hi
        cases i with
        | zero => simpa using hm'
        | succ i => simpa using h4 i (by omega)

theorem finish1_cases (k : Nat) : ∀ (a b : List Bytes), a.length = b.length →
    (finish1 k a b = .ok () ∧ ∀ j, j < b.length → a.getD j [] ≠ [] ∧ b.getD j [] ≠ []) ∨
    ∃ j, j < b.length ∧ (∀ i, i < j → a.getD i [] ≠ [] ∧ b.getD i [] ≠ []) ∧
      ((finish1 k a b = .err (.msg1Null (k + j)) ∧ a.getD j [] = []) ∨
       (finish1 k a b = .err (.msg2Null (k + j)) ∧ a.getD j [] ≠ [] ∧ b.getD j [] = []))
  | _, [], _ => .inl ⟨by simp [finish1], by simp⟩
  | [], _ :: _, h => by simp at h
  | m :: t, m' :: t', h => by
    simp only [finish1]
    by_cases hm : m.length = 0
    · have hm' : m = [] := List.length_eq_zero_iff.mp hm
      exact .inr ⟨0, by simp, by simp, .inl ⟨by simp [hm], by simp [hm']⟩⟩
    · have hm1 : m ≠ [] := fun e => hm (by simp [e])
      simp only [hm, if_false]
      by_cases hn : m'.length = 0
      · have hn' : m' = [] := List.length_eq_zero_iff.mp hn
        exact .inr ⟨0, by simp, by simp, .inr ⟨by simp [hn], by simp [hm1], by simp [hn']⟩⟩
      · have hn1 : m' ≠ [] := fun e => hn (by simp [e])
        simp only [hn, if_false]
        rcases finish1_cases (k + 1) t t' (by simpa using h) with ⟨h1, h2⟩ | ⟨j, h1, h2, h3⟩
        · refine .inl ⟨h1, fun j hj => ?_⟩
          cases j with
          | zero => simpa using ⟨hm1, hn1⟩
          | succ j => simpa using h2 j (by simpa using hj)
        · refine .inr ⟨j + 1, by simpa using h1, fun i hi => ?_, ?_⟩
          · cases i with
            | zero => simpa using ⟨hm1, hn1⟩
            | succ i => simpa using h2 i (by omega)
          · have e : k + (j + 1) = k + 1 + j := by omega
            rw [e]
            simpa using h3

end Tss.Onsign
