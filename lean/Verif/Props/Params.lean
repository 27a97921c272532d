import Verif.Model.Params
import Mathlib.Data.List.GetD
import Mathlib.Tactic.Common
/-! C64: committees and parameters. C69: the bookkeeping of rounds. -/
namespace Tss.Params
open Tss

/-! ### Specification -/

/-- Some listed party has the key of `me`. -/
def spec.Listed (me : PartyID) (l : List (Option PartyID)) : Prop := ∃ p, some p ∈ l ∧ p.keyInt = me.keyInt

/-! ### C64 -/

theorem member_ok (me : PartyID) : ∀ l : List (Option PartyID), (∀ p ∈ l, p ≠ none) →
    ∃ b, member (some me) l = .ok b ∧ (b = true ↔ spec.Listed me l)
  | [], _ => ⟨false, rfl, by simp [spec.Listed]⟩
  | none :: t, h => absurd rfl (h none (by simp))
  | some p :: t, h => by
    obtain ⟨b, h1, h2⟩ := member_ok me t (fun q hq => h q (by simp [hq]))
    by_cases e : me.keyInt = p.keyInt
    · exact ⟨true, by simp [member, e], by simp [spec.Listed]; exact .inl e.symm⟩
    · refine ⟨b, by simp [member, e, h1], ?_⟩
      rw [h2]
      unfold spec.Listed
      constructor
      · rintro ⟨q, hq, hk⟩; exact ⟨q, by simp [hq], hk⟩
      · rintro ⟨q, hq, hk⟩
        rw [List.mem_cons] at hq
        rcases hq with hq | hq
        · cases hq; exact absurd hk.symm e
        · exact ⟨q, hq, hk⟩

/-- C64. IsOldCommittee and IsNewCommittee say exactly whether the own key is in the ids that the old and the new context read at the
time of the call, whatever the index, id text and moniker of the entries. -/
theorem C64_membership (h : Heap) (r : ReSharing) (me : PartyID) (hme : r.base.partyID = some me) :
    ((∀ p ∈ h.ids r.OldParties, p ≠ none) → ∃ b, r.IsOldCommittee h = .ok b ∧ (b = true ↔ spec.Listed me (h.ids r.OldParties))) ∧
    ((∀ p ∈ h.ids r.NewParties, p ≠ none) → ∃ b, r.IsNewCommittee h = .ok b ∧ (b = true ↔ spec.Listed me (h.ids r.NewParties))) := by
  unfold ReSharing.IsOldCommittee ReSharing.IsNewCommittee
  rw [hme]
  exact ⟨fun hn => member_ok me _ hn, fun hn => member_ok me _ hn⟩

/-- C64. A party without an id is in no empty committee, and crashes the question about any other. -/
theorem C64_no_own_id (h : Heap) (r : ReSharing) (hme : r.base.partyID = none) :
    (h.ids r.OldParties = [] → r.IsOldCommittee h = .ok false) ∧ (h.ids r.OldParties ≠ [] → r.IsOldCommittee h = .panic) := by
  unfold ReSharing.IsOldCommittee
  rw [hme]
  change (h.ids r.base.parties = [] → _) ∧ (h.ids r.base.parties ≠ [] → _)
  cases h.ids r.base.parties with
  | nil => simp [member]
  | cons p t => simp [member]

/-- C64. The parameters report what they were configured with; counts and thresholds are not derived from the contexts. -/
theorem C64_as_configured (procs : Int) (reader ec ctx newCtx : Nat) (pid : Option PartyID) (n t n' t' : Int) :
    let r := NewReSharingParameters procs reader ec ctx newCtx pid n t n' t'
    r.base.ec = ec ∧ r.base.partyID = pid ∧ r.base.partyCount = n ∧ r.base.threshold = t ∧ r.OldParties = ctx ∧ r.OldPartyCount = n ∧
    r.NewParties = newCtx ∧ r.NewPartyCount = n' ∧ r.NewThreshold = t' ∧ r.OldAndNewPartyCount = n + n' ∧
    r.base.concurrency = procs ∧ r.base.rand = reader ∧ r.base.partialKeyRand = reader ∧ r.base.safePrimeGenTimeout = 300 * 10 ^ 9 := by
  simp [NewReSharingParameters, NewParameters, ReSharing.OldParties, ReSharing.OldPartyCount, ReSharing.NewParties,
    ReSharing.NewPartyCount, ReSharing.NewThreshold, ReSharing.OldAndNewPartyCount]

/-- C64. Each setter sets its own field and leaves the others. -/
theorem C64_setters (p : Params) (c t : Int) (r : Nat) :
    p.SetConcurrency c = { p with concurrency := c } ∧ p.SetSafePrimeGenTimeout t = { p with safePrimeGenTimeout := t } ∧
    p.SetPartialKeyRand r = { p with partialKeyRand := r } ∧ p.SetRand r = { p with rand := r } := ⟨rfl, rfl, rfl, rfl⟩

theorem read_length (h : Heap) (s : Slice) : (h.read s).length = s.len := by simp [Heap.read]

theorem read_getElem (h : Heap) (s : Slice) (i : Nat) (hi : i < (h.read s).length) : (h.read s)[i] = h.arrays s.arr i := by
  simp [Heap.read]

theorem read_congr (h h' : Heap) (s : Slice) (e : ∀ i < s.len, h'.arrays s.arr i = h.arrays s.arr i) : h'.read s = h.read s := by
  unfold Heap.read
  apply List.map_congr_left
  intro i hi
  exact e i (List.mem_range.mp hi)

/-- The slice returned by append reads the old contents followed by the new ones. -/
theorem append_read (grow : Nat → Nat) (h : Heap) (s : Slice) (xs : List (Option PartyID)) :
    (h.append grow s xs).2.read (h.append grow s xs).1 = h.read s ++ xs := by
  apply List.ext_getElem
  · rw [read_length, List.length_append, read_length]
    unfold Heap.append
    simp only
    split <;> rfl
  · intro i h1 h2
    rw [read_getElem]
    unfold Heap.append
    simp only
    rw [List.length_append, read_length] at h2
    split
    · rename_i hc
      simp only [true_and]
      by_cases hi : s.len ≤ i
      · rw [if_pos ⟨hi, h2⟩, List.getD_eq_getElem _ _ (by omega), List.getElem_append_right (by rw [read_length]; exact hi)]
        simp only [read_length]
      · rw [if_neg (by omega), List.getElem_append_left (by rw [read_length]; omega), read_getElem]
    · simp only [if_true]
      rw [List.getD_eq_getElem _ _ (by rw [List.length_append, read_length]; exact h2)]

/-- C64. OldAndNewParties returns the old ids followed by the new ones, whatever the memory looks like. -/
theorem C64_old_and_new (grow : Nat → Nat) (h : Heap) (r : ReSharing) :
    (r.OldAndNewParties grow h).2.read (r.OldAndNewParties grow h).1 = h.ids r.OldParties ++ h.ids r.NewParties :=
  append_read ..

/-- C64. When the old ids fill their array (as those made by SortPartyIDs do) and there is something to add, nothing that existed
before reads differently afterwards, and the result shares its array with nothing. -/
theorem C64_old_and_new_fresh (grow : Nat → Nat) (h : Heap) (r : ReSharing) (hfull : (h.ctx r.OldParties).len = (h.ctx r.OldParties).cap)
    (hne : h.ids r.NewParties ≠ []) :
    (r.OldAndNewParties grow h).1.arr = h.fresh ∧ (r.OldAndNewParties grow h).2.ctx = h.ctx ∧
    ∀ s : Slice, s.arr ≠ h.fresh → (r.OldAndNewParties grow h).2.read s = h.read s := by
  unfold ReSharing.OldAndNewParties Heap.append
  have hlen : (h.ids r.NewParties).length ≠ 0 := by simpa using hne
  simp only
  rw [if_neg (by omega)]
  refine ⟨rfl, rfl, fun s hs => read_congr _ _ _ fun i _ => ?_⟩
  simp [hs]

/-- C64. When the old ids' array has room, the list is built inside it: a list obtained earlier from the same old context changes
when the call is repeated with another new committee. -/
theorem C64_shared_array (grow : Nat → Nat) (h : Heap) (r1 r2 : ReSharing) (hold : r1.OldParties = r2.OldParties) (a b : Option PartyID)
    (h1 : h.ids r1.NewParties = [a]) (h2 : (r1.OldAndNewParties grow h).2.ids r2.NewParties = [b])
    (hroom : (h.ctx r1.OldParties).len < (h.ctx r1.OldParties).cap) :
    let first := r1.OldAndNewParties grow h
    let second := r2.OldAndNewParties grow first.2
    first.2.read first.1 = h.ids r1.OldParties ++ [a] ∧ second.2.read first.1 = h.ids r1.OldParties ++ [b] := by
  intro first second
  have e1 : first.2.read first.1 = h.ids r1.OldParties ++ [a] := by
    have := C64_old_and_new grow h r1
    rw [h1] at this; exact this
  refine ⟨e1, ?_⟩
  have c1 : first.2.ctx = h.ctx := by
    change (r1.OldAndNewParties grow h).2.ctx = h.ctx
    unfold ReSharing.OldAndNewParties Heap.append; simp only; split <;> rfl
  have s1 : first.1 = ⟨(h.ctx r1.OldParties).arr, (h.ctx r1.OldParties).len + 1, (h.ctx r1.OldParties).cap⟩ := by
    change (r1.OldAndNewParties grow h).1 = _
    unfold ReSharing.OldAndNewParties Heap.append
    rw [h1]
    simp only [List.length_singleton]
    rw [if_pos (by omega)]
  have s2 : second.1 = first.1 := by
    change (r2.OldAndNewParties grow first.2).1 = _
    unfold ReSharing.OldAndNewParties Heap.append
    rw [h2, c1, ← hold, s1]
    simp only [List.length_singleton]
    rw [if_pos (by omega)]
  have e2 := C64_old_and_new grow first.2 r2
  rw [h2] at e2
  change second.2.read second.1 = _ at e2
  rw [s2, ← hold] at e2
  rw [e2]
  congr 1
  -- the old part is unchanged by the first call
  change first.2.read (first.2.ctx r1.OldParties) = h.read (h.ctx r1.OldParties)
  rw [c1]
  apply read_congr
  intro i hi
  change (r1.OldAndNewParties grow h).2.arrays _ i = _
  unfold ReSharing.OldAndNewParties Heap.append
  rw [h1]
  simp only [List.length_singleton]
  rw [if_pos (by omega)]
  simp only [true_and]
  rw [if_neg (by omega)]

/-- C64. Membership follows the context: after SetIDs on the old context the answer is about the new list, and a re-sharing that uses
one context for both committees changes both. -/
theorem C64_set_ids (h : Heap) (r : ReSharing) (me : PartyID) (hme : r.base.partyID = some me) (s : Slice)
    (hs : ∀ p ∈ h.read s, p ≠ none) :
    (∃ b, r.IsOldCommittee (h.setIDs r.OldParties s) = .ok b ∧ (b = true ↔ spec.Listed me (h.read s))) ∧
    (r.NewParties ≠ r.OldParties → r.IsNewCommittee (h.setIDs r.OldParties s) = r.IsNewCommittee h) ∧
    (r.NewParties = r.OldParties → r.IsNewCommittee (h.setIDs r.OldParties s) = r.IsOldCommittee (h.setIDs r.OldParties s)) := by
  have e : (h.setIDs r.OldParties s).ids r.OldParties = h.read s := by simp [Heap.ids, Heap.setIDs, Heap.read]
  refine ⟨?_, ?_, ?_⟩
  · have := (C64_membership (h.setIDs r.OldParties s) r me hme).1
    rw [e] at this
    exact this hs
  · intro hne
    unfold ReSharing.IsNewCommittee
    congr 1
    change (h.setIDs r.OldParties s).read _ = _
    unfold Heap.setIDs Heap.ids
    have : r.newParties ≠ r.OldParties := hne
    simp [this, Heap.read]
  · intro he
    unfold ReSharing.IsNewCommittee ReSharing.IsOldCommittee
    rw [show r.newParties = r.base.parties from he]

/-! ### C69 -/

/-- C69. A round can proceed exactly when it has been started and every party has been marked. -/
theorem C69_can_proceed (b : Base) : b.CanProceed = true ↔ b.started = true ∧ ∀ x ∈ b.ok, x = true := by
  unfold Base.CanProceed
  cases b.started <;> simp

theorem waitLoop_ok (ids : List (Option PartyID)) : ∀ (l : List Bool) (j : Nat), j + l.length ≤ ids.length →
    waitLoop ids j l = .ok (((List.range l.length).filter fun k => l.getD k true == false).map fun k => ids.getD (j + k) none)
  | [], j, _ => rfl
  | b :: t, j, h => by
    simp only [List.length_cons] at h
    have ih := waitLoop_ok ids t (j + 1) (by omega)
    have e : ∀ k, ids.getD (j + (k + 1)) none = ids.getD (j + 1 + k) none := by intro k; congr 1; omega
    rw [List.length_cons, List.range_succ_eq_map, List.filter_cons, List.filter_map]
    have e2 : ((fun k => (b :: t).getD k true == false) ∘ Nat.succ) = fun k => t.getD k true == false := by
      funext k; simp
    rw [e2]
    cases b with
    | true =>
      rw [waitLoop, ih]
      simp only [List.getD_cons_zero]
      congr 1
      simp only [Bool.true_eq_false, beq_iff_eq, if_false, List.map_map]
      apply List.map_congr_left
      intro k _
      exact (e k).symm
    | false =>
      rw [waitLoop, dif_pos (by omega), ih]
      simp only [List.getD_cons_zero, beq_self_eq_true, if_true, List.map_cons, List.map_map, Nat.add_zero]
      rw [List.getD_eq_getElem _ _ (by omega)]
      congr 2
      apply List.map_congr_left
      intro k _
      exact (e k).symm

/-- C69. WaitingFor lists, in order, exactly the ids of the parties not yet marked. -/
theorem C69_waiting_for (b : Base) (h : b.ok.length ≤ b.ids.length) :
    b.WaitingFor = .ok (((List.range b.ok.length).filter fun j => b.ok.getD j true == false).map fun j => b.ids.getD j none) := by
  have := waitLoop_ok b.ids b.ok 0 (by omega)
  simpa [Base.WaitingFor] using this

/-- C69. A started round waits for nobody exactly when it can proceed. -/
theorem C69_waiting_empty (b : Base) (h : b.ok.length ≤ b.ids.length) (hs : b.started = true) :
    b.WaitingFor = .ok [] ↔ b.CanProceed = true := by
  rw [C69_waiting_for b h, C69_can_proceed]
  simp only [Res.ok.injEq, List.map_eq_nil_iff, List.filter_eq_nil_iff, List.mem_range, beq_iff_eq, hs, true_and]
  constructor
  · intro hx x hx'
    obtain ⟨k, hk, rfl⟩ := List.getElem_of_mem hx'
    have := hx k hk
    rw [List.getD_eq_getElem _ _ hk] at this
    simpa using this
  · intro hx k hk
    rw [List.getD_eq_getElem _ _ hk, hx _ (List.getElem_mem hk)]; simp

/-- C69. After resetOK the round waits for everybody, in order. -/
theorem C69_reset (b : Base) (h : b.ok.length = b.ids.length) : b.resetOK.WaitingFor = .ok b.ids ∧
    (b.ok ≠ [] → b.resetOK.CanProceed = false) := by
  constructor
  · rw [C69_waiting_for _ (by simp [Base.resetOK, h])]
    congr 1
    apply List.ext_getElem
    · simp only [List.length_map, Base.resetOK]
      rw [List.filter_eq_self.mpr]
      · simp [h]
      · intro k hk
        rw [List.mem_range] at hk
        rw [List.getD_eq_getElem _ _ (by simpa using hk)]; simp
    · intro i h1 h2
      have hf : (List.range b.resetOK.ok.length).filter (fun j => b.resetOK.ok.getD j true == false) = List.range b.resetOK.ok.length := by
        rw [List.filter_eq_self]
        intro k hk
        rw [List.mem_range] at hk
        rw [List.getD_eq_getElem _ _ hk]; simp [Base.resetOK]
      simp only [hf, List.getElem_map, List.getElem_range]
      exact List.getD_eq_getElem _ _ h2
  · intro hne
    by_contra hc
    rw [Bool.not_eq_false, C69_can_proceed] at hc
    obtain ⟨x, hx⟩ := List.exists_mem_of_ne_nil _ hne
    have := hc.2 false (by simp only [Base.resetOK, List.mem_map]; exact ⟨x, hx, trivial⟩)
    cases this

/-! ### Examples -/

/-- Two contexts: old ids {3, 7} in an array with room for one more, new ids {7}. -/
def toyHeap : Heap where
  arrays := fun a i => match a, i with
    | 0, 0 => some ⟨"1", "a", some [3], 0⟩
    | 0, 1 => some ⟨"2", "b", some [7], 1⟩
    | 1, 0 => some ⟨"9", "z", some [0, 7], 0⟩
    | _, _ => none
  ctx := fun c => if c = 0 then ⟨0, 2, 3⟩ else ⟨1, 1, 1⟩
  fresh := 2

def toyMe (k : UInt8) : ReSharing := NewReSharingParameters 4 0 0 0 1 (some ⟨"x", "y", some [k], 5⟩) 2 1 1 1

example : (toyMe 7).IsOldCommittee toyHeap = .ok true ∧ (toyMe 7).IsNewCommittee toyHeap = .ok true ∧
    (toyMe 3).IsOldCommittee toyHeap = .ok true ∧ (toyMe 3).IsNewCommittee toyHeap = .ok false ∧
    (toyMe 4).IsOldCommittee toyHeap = .ok false := by decide +kernel

example : (toyHeap.ctx (toyMe 7).OldParties).len < (toyHeap.ctx (toyMe 7).OldParties).cap ∧
    (toyHeap.ids (toyMe 7).NewParties).length = 1 := by decide +kernel

example : (Base.WaitingFor ⟨[some ⟨"1", "a", some [3], 0⟩, some ⟨"2", "b", some [7], 1⟩], [true, false], true, 2⟩) =
    .ok [some ⟨"2", "b", some [7], 1⟩] := by decide +kernel

end Tss.Params
