import Verif.Model.KeygenOps
import Verif.Lemmas.Wire
import Verif.Lemmas.EC
import Verif.Lemmas.PartyID
import Verif.Lemmas.Common
/-! Lemmas about the keygen model. -/
namespace Tss.Keygen
open Tss Text Wire

/-! ### loops -/

theorem forJ_nil {σ ε : Type} (step : σ → Nat → Res ε Unit × σ) (s : σ) : forJ step [] s = (.ok (), s) := rfl

theorem forJ_cons_ok {σ ε : Type} {step : σ → Nat → Res ε Unit × σ} {j : Nat} {t : List Nat} {s s' : σ} :
    forJ step (j :: t) s = (.ok (), s') ↔ ∃ s1, step s j = (.ok (), s1) ∧ forJ step t s1 = (.ok (), s') := by
  simp only [forJ]
  cases h : step s j with
  | mk r s1 =>
    cases r with
    | ok a => simp
    | err e => simp
    | panic => simp

/-- A loop that succeeds is a fold of its body's state changes. -/
theorem forJ_ok_fold {σ ε : Type} {step : σ → Nat → Res ε Unit × σ} {upd : σ → Nat → σ}
    (h : ∀ s j s', step s j = (.ok (), s') → s' = upd s j) {l : List Nat} {s s' : σ}
    (hl : forJ step l s = (.ok (), s')) : s' = l.foldl upd s := by
  induction l generalizing s with
  | nil => simp only [forJ, Prod.mk.injEq, true_and] at hl; simp [hl]
  | cons j t ih =>
    obtain ⟨s1, h1, h2⟩ := forJ_cons_ok.mp hl
    rw [List.foldl_cons, ← h _ _ _ h1]
    exact ih h2

/-- A loop whose body never changes the state. -/
theorem forJ_const {σ ε : Type} {step : σ → Nat → Res ε Unit × σ} (h : ∀ s j, (step s j).2 = s) (l : List Nat)
    (s : σ) : (forJ step l s).2 = s := by
  induction l generalizing s with
  | nil => rfl
  | cons j t ih =>
    have hs := h s j
    simp only [forJ]
    cases hr : step s j with
    | mk r s1 =>
      rw [hr] at hs; simp only at hs; subst hs
      cases r <;> simp only
      exact ih s1

/-- A property of the state kept by the body is kept by the loop. -/
theorem forJ_inv {σ ε : Type} {step : σ → Nat → Res ε Unit × σ} (P : σ → Prop)
    (h : ∀ s j, P s → P (step s j).2) (l : List Nat) (s : σ) (hs : P s) : P (forJ step l s).2 := by
  induction l generalizing s with
  | nil => exact hs
  | cons j t ih =>
    have h1 := h s j hs
    simp only [forJ]
    cases hr : step s j with
    | mk r s1 =>
      rw [hr] at h1
      cases r <;> simp only
      · exact ih s1 h1
      · exact h1
      · exact h1

/-- A loop succeeds when its body succeeds along the way. -/
theorem forJ_ok_of {σ ε : Type} {step : σ → Nat → Res ε Unit × σ} (upd : σ → Nat → σ) (P : σ → Nat → Prop)
    (hstep : ∀ s j, P s j → step s j = (.ok (), upd s j)) (hP : ∀ s i j, P s j → P (upd s i) j)
    (l : List Nat) (s : σ) (hs : ∀ j ∈ l, P s j) : forJ step l s = (.ok (), l.foldl upd s) := by
  induction l generalizing s with
  | nil => rfl
  | cons j t ih =>
    rw [forJ_cons_ok]
    refine ⟨upd s j, hstep s j (hs j (by simp)), ?_⟩
    exact ih _ (fun i hi => hP _ _ _ (hs i (by simp [hi])))

theorem getD_set {α : Type} (l : List α) (i j : Nat) (a d : α) :
    (l.set i a).getD j d = if i = j ∧ j < l.length then a else l.getD j d := by
  simp only [List.getD_eq_getElem?_getD, List.getElem?_set]
  by_cases h : i = j
  · subst h
    by_cases h2 : i < l.length <;> simp [h2]
  · simp [h]

/-! ### registry -/

@[simp] theorem set_same (r : Reg) (key : Bytes) (p : Option Party) : r.set key p key = p := by simp [Reg.set]

theorem set_other (r : Reg) {key k : Bytes} (p : Option Party) (h : k ≠ key) : r.set key p k = r k := by
  simp [Reg.set, h]

theorem withParty_none {α : Type} {r : Reg} {key : Bytes} (f : Party → Res Err α × Party) (h : r key = none) :
    withParty r key f = (.err (.partyNotFound key), r) := by simp [withParty, h]

theorem withParty_some {α : Type} {r : Reg} {key : Bytes} {p : Party} (f : Party → Res Err α × Party)
    (h : r key = some p) : withParty r key f = ((f p).1, r.set key (some (f p).2)) := by simp [withParty, h]

theorem withParty_other {α : Type} (r : Reg) {key k : Bytes} (f : Party → Res Err α × Party) (h : k ≠ key) :
    (withParty r key f).2 k = r k := by
  unfold withParty
  split
  · rfl
  · exact set_other r _ h

/-! ### finish -/

theorem finish_ok_iff (index k : Nat) (l : List Bytes) :
    finish index k l = .ok () ↔ ∀ j, j < l.length → k + j ≠ index → l.getD j [] ≠ [] := by
  induction l generalizing k with
  | nil => simp [finish]
  | cons m t ih =>
    simp only [finish]
    by_cases hk : k = index
    · simp only [hk, if_true]
      rw [ih]
      constructor
      · intro h j hj hji
        cases j with
        | zero => omega
        | succ j =>
          have := h j (by simpa using hj) (by omega)
          simpa using this
      · intro h j hj hji
        have := h (j + 1) (by simpa using hj) (by omega)
        simpa using this
    · simp only [hk, if_false]
      by_cases hm : m.length = 0
      · have hm' : m = [] := List.length_eq_zero_iff.mp hm
        simp only [hm, if_true]
        simp only [reduceCtorEq, false_iff, not_forall]
        exact ⟨0, by simp, by omega, by simp [hm']⟩
      · have hm' : m ≠ [] := fun e => hm (by simp [e])
        simp only [hm, if_false]
        rw [ih]
        constructor
        · intro h j hj hji
          cases j with
          | zero => simpa using hm'
          | succ j =>
            have := h j (by simpa using hj) (by omega)
            simpa using this
        · intro h j hj hji
          have := h (j + 1) (by simpa using hj) (by omega)
          simpa using this

theorem finish_err_iff (index k : Nat) (l : List Bytes) (e : Err) :
    finish index k l = .err e ↔ ∃ j, j < l.length ∧ e = .msgNull (k + j) ∧ k + j ≠ index ∧ l.getD j [] = [] ∧
      ∀ i, i < j → k + i ≠ index → l.getD i [] ≠ [] := by
  induction l generalizing k with
  | nil => simp [finish]
  | cons m t ih =>
    simp only [finish]
    by_cases hk : k = index
    · simp only [hk, if_true]
      rw [ih]
      constructor
      · rintro ⟨j, hj, he, h1, h2, h3⟩
        refine ⟨j + 1, by simpa using hj, by rw [he]; congr 1; omega, by omega, by simpa using h2, ?_⟩
        intro i hi hii
        cases i with
        | zero => omega
        | succ i => simpa using h3 i (by omega) (by omega)
      · rintro ⟨j, hj, he, h1, h2, h3⟩
        cases j with
        | zero => omega
        | succ j =>
          refine ⟨j, by simpa using hj, by rw [he]; congr 1; omega, by omega, by simpa using h2, ?_⟩
          intro i hi hii
          simpa using h3 (i + 1) (by omega) (by omega)
    · simp only [hk, if_false]
      by_cases hm : m.length = 0
      · have hm' : m = [] := List.length_eq_zero_iff.mp hm
        simp only [hm, if_true, Res.err.injEq]
        constructor
        · rintro rfl
          exact ⟨0, by simp, by simp, by omega, by simp [hm'], by simp⟩
        · rintro ⟨j, hj, he, h1, h2, h3⟩
          cases j with
          | zero => simp [he]
          | succ j => exact absurd hm' (by simpa using h3 0 (by omega) (by omega))
      · have hm' : m ≠ [] := fun e => hm (by simp [e])
        simp only [hm, if_false]
        rw [ih]
        constructor
        · rintro ⟨j, hj, he, h1, h2, h3⟩
          refine ⟨j + 1, by simpa using hj, by rw [he]; congr 1; omega, by omega, by simpa using h2, ?_⟩
          intro i hi hii
          cases i with
          | zero => simpa using hm'
          | succ i => simpa using h3 i (by omega) (by omega)
        · rintro ⟨j, hj, he, h1, h2, h3⟩
          cases j with
          | zero => exact absurd (by simpa using h2) hm'
          | succ j =>
            refine ⟨j, by simpa using hj, by rw [he]; congr 1; omega, by omega, by simpa using h2, ?_⟩
            intro i hi hii
            simpa using h3 (i + 1) (by omega) (by omega)

/-! ### creation -/

theorem buildIds_eq_some (pIDs : List Bytes) (i n : Nat) (l : List PartyID) :
    buildIds pIDs i n = some l ↔
      l.length = n ∧ ∀ j, j < n → ∃ s k, pIDs[i + j]? = some s ∧ parseBig 10 s = some k ∧
        l[j]? = some ⟨toString (i + j), "m_" ++ toString (i + j), some (intBytes k), -1⟩ := by
  induction n generalizing i l with
  | zero =>
    simp only [buildIds, Option.some.injEq]
    constructor
    · rintro rfl; simp
    · rintro ⟨h, -⟩; exact (List.length_eq_zero_iff.mp h).symm
  | succ n ih =>
    simp only [buildIds]
    constructor
    · intro h
      cases hs : pIDs[i]? with
      | none => simp [hs] at h
      | some s =>
        simp only [hs] at h
        cases hk : parseBig 10 s with
        | none => simp [hk, PartyID.new] at h
        | some k =>
          simp only [hk, PartyID.new, Option.map_some] at h
          cases hb : buildIds pIDs (i + 1) n with
          | none => simp [hb] at h
          | some t =>
            simp only [hb, Option.map_some, Option.some.injEq] at h
            subst h
            obtain ⟨h1, h2⟩ := (ih _ _).mp hb
            refine ⟨by simp [h1], ?_⟩
            intro j hj
            cases j with
            | zero => exact ⟨s, k, by simpa using hs, hk, by simp⟩
            | succ j =>
              obtain ⟨s', k', e1, e2, e3⟩ := h2 j (by omega)
              have e : i + (j + 1) = i + 1 + j := by omega
              exact ⟨s', k', by rw [e]; exact e1, e2, by rw [e]; simpa using e3⟩
    · rintro ⟨hl, h⟩
      obtain ⟨s, k, e1, e2, e3⟩ := h 0 (by omega)
      cases l with
      | nil => simp at hl
      | cons p t =>
        have ht : buildIds pIDs (i + 1) n = some t := by
          rw [ih]
          refine ⟨by simpa using hl, ?_⟩
          intro j hj
          obtain ⟨s', k', f1, f2, f3⟩ := h (j + 1) (by omega)
          have e : i + (j + 1) = i + 1 + j := by omega
          exact ⟨s', k', by rw [← e]; exact f1, f2, by rw [← e]; simpa using f3⟩
        simp only [Nat.add_zero] at e1
        simp only [e1, e2, PartyID.new, Option.map_some, ht]
        simp only [List.getElem?_cons_zero, Option.some.injEq, Nat.add_zero] at e3
        rw [e3]

theorem buildIds_isSome (pIDs : List Bytes) (i n : Nat) :
    (buildIds pIDs i n).isSome ↔ ∀ j, j < n → ∃ s, pIDs[i + j]? = some s ∧ (parseBig 10 s).isSome := by
  induction n generalizing i with
  | zero => simp [buildIds]
  | succ n ih =>
    simp only [buildIds]
    constructor
    · intro h j hj
      cases hs : pIDs[i]? with
      | none => simp [hs] at h
      | some s =>
        simp only [hs] at h
        cases hk : parseBig 10 s with
        | none => simp [hk, PartyID.new] at h
        | some k =>
          simp only [hk, PartyID.new, Option.map_some, Option.isSome_map] at h
          cases j with
          | zero => exact ⟨s, by simpa using hs, by simp [hk]⟩
          | succ j =>
            have := (ih (i + 1)).mp h j (by omega)
            have e : i + (j + 1) = i + 1 + j := by omega
            rw [e]; exact this
    · intro h
      obtain ⟨s, e1, e2⟩ := h 0 (by omega)
      obtain ⟨k, hk⟩ := Option.isSome_iff_exists.mp e2
      simp only [Nat.add_zero] at e1
      simp only [e1, hk, PartyID.new, Option.map_some, Option.isSome_map]
      rw [ih]
      intro j hj
      have := h (j + 1) (by omega)
      have e : i + (j + 1) = i + 1 + j := by omega
      rw [e] at this; exact this

theorem sort_length (l : List PartyID) : (PartyID.SortPartyIDs l none).length = l.length := by
  simp [PartyID.SortPartyIDs, PartyID.assignIdx_length, (PartyID.insertionSort_perm l).length_eq]

/-! ### chain codes -/

theorem parseCodes_ok_iff (i : Nat) (cs : List Bytes) (l : List Int) :
    parseCodes i cs = .ok l ↔ cs.map (parseBig 16) = l.map some := by
  induction cs generalizing i l with
  | nil =>
    simp only [parseCodes, List.map_nil]
    constructor
    · intro h; cases h; rfl
    · intro h; rw [List.map_eq_nil_iff.mp h.symm]
  | cons s t ih =>
    simp only [parseCodes, List.map_cons]
    cases hs : parseBig 16 s with
    | none =>
      simp only [reduceCtorEq, false_iff]
      cases l <;> simp
    | some v =>
      simp only
      cases ht : parseCodes (i + 1) t with
      | ok l' =>
        simp only [Res.ok.injEq]
        have h1 := (ih (i + 1) l').mp ht
        rw [h1]
        cases l with
        | nil => simp
        | cons a l => 
          simp only [List.cons.injEq, List.map_cons, Option.some.injEq]
          constructor
          · rintro ⟨rfl, rfl⟩; simp
          · rintro ⟨rfl, h⟩
            exact ⟨rfl, List.map_injective_iff.mpr (Option.some_injective _) h⟩
      | err e =>
        simp only [reduceCtorEq, false_iff]
        cases l with
        | nil => simp
        | cons a l =>
          simp only [List.map_cons, List.cons.injEq, not_and]
          intro _ h
          have := (ih (i + 1) l).mpr h
          rw [ht] at this; cases this
      | panic =>
        simp only [reduceCtorEq, false_iff]
        cases l with
        | nil => simp
        | cons a l =>
          simp only [List.map_cons, List.cons.injEq, not_and]
          intro _ h
          have := (ih (i + 1) l).mpr h
          rw [ht] at this; cases this

theorem parseCodes_no_panic (i : Nat) (cs : List Bytes) : parseCodes i cs ≠ .panic := by
  induction cs generalizing i with
  | nil => simp [parseCodes]
  | cons s t ih =>
    simp only [parseCodes]
    cases parseBig 16 s with
    | none => simp
    | some v =>
      simp only
      cases h : parseCodes (i + 1) t with
      | panic => exact absurd h (ih _)
      | ok l => simp
      | err e => simp

end Tss.Keygen
