import Verif.Lemmas.Keygen
/-! C13 - C17 and C22: creating a key-generation party, chain codes, message slots. -/
namespace Tss.Keygen
open Tss Text Wire

theorem set_self (r : Reg) (key : Bytes) (p : Party) (h : r key = some p) : r.set key (some p) = r := by
  funext k
  by_cases hk : k = key
  · subst hk; simp [h]
  · exact set_other r _ hk

/-! ### C13 -/

/-- The ids a caller may pass: at least `cnt` of them, the first `cnt` decimal integers. -/
def IdsOk (cnt : Int) (pIDs : List Bytes) : Prop :=
  0 ≤ cnt ∧ cnt ≤ pIDs.length ∧ ∀ s ∈ pIDs.take cnt.toNat, ∃ k, parseBig 10 s = some k

theorem idsOk_iff (cnt : Int) (pIDs : List Bytes) (h : 0 ≤ cnt) :
    IdsOk cnt pIDs ↔ (buildIds pIDs 0 cnt.toNat).isSome := by
  rw [buildIds_isSome]
  constructor
  · rintro ⟨-, h1, h2⟩ j hj
    have hj' : j < pIDs.length := by omega
    refine ⟨pIDs[j], by simp [hj'], ?_⟩
    obtain ⟨k, hk⟩ := h2 pIDs[j] (by
      rw [List.mem_take_iff_getElem]
      exact ⟨j, by omega, rfl⟩)
    simp [hk]
  · intro hs
    refine ⟨h, ?_, ?_⟩
    · by_contra hc
      obtain ⟨s, e, -⟩ := hs pIDs.length (by omega)
      simp at e
    · intro s hs'
      rw [List.mem_take_iff_getElem] at hs'
      obtain ⟨j, hj, rfl⟩ := hs'
      obtain ⟨s, e, e2⟩ := hs j (by omega)
      have hj' : j < pIDs.length := by omega
      simp only [Nat.zero_add, hj', List.getElem?_eq_getElem, Option.some.injEq] at e
      subst e
      exact Option.isSome_iff_exists.mp e2

/-- C13: creation succeeds exactly when enough decimal ids are given, the index is in range and the root
key is hexadecimal. -/
theorem C13_success_iff (r : Reg) (key : Bytes) (idx cnt : Int) (pIDs : List Bytes) (root : Bytes) :
    (NewLocalParty r key idx cnt pIDs root).1 = .ok () ↔
      IdsOk cnt pIDs ∧ (0 ≤ idx ∧ idx < cnt) ∧ ∃ b, hexDecode root = some b := by
  unfold NewLocalParty
  by_cases hc : cnt < 0
  · simp only [hc, if_true, reduceCtorEq, false_iff]
    rintro ⟨⟨h, -⟩, -⟩; omega
  · simp only [hc, if_false]
    rw [idsOk_iff cnt pIDs (by omega)]
    cases hb : buildIds pIDs 0 cnt.toNat with
    | none => simp
    | some uIds =>
      have hl : uIds.length = cnt.toNat := ((buildIds_eq_some _ _ _ _).mp hb).1
      simp only [sort_length, hl, Option.isSome_some, true_and]
      by_cases hi : 0 ≤ idx ∧ idx < cnt
      · have hi' : 0 ≤ idx ∧ idx < (cnt.toNat : Int) := by omega
        simp only [hi', and_self, if_true, hi]
        cases hexDecode root <;> simp
      · have hi' : ¬ (0 ≤ idx ∧ idx < (cnt.toNat : Int)) := by omega
        simp [if_neg hi', hi, -Int.lt_toNat, -Int.ofNat_toNat]

/-- C13: non-decimal ids, too few ids or an index out of range crash the process. -/
theorem C13_panic_iff (r : Reg) (key : Bytes) (idx cnt : Int) (pIDs : List Bytes) (root : Bytes) :
    (NewLocalParty r key idx cnt pIDs root).1 = .panic ↔ ¬ (IdsOk cnt pIDs ∧ 0 ≤ idx ∧ idx < cnt) := by
  unfold NewLocalParty
  by_cases hc : cnt < 0
  · simp only [hc, if_true, true_iff]
    rintro ⟨⟨h, -⟩, -⟩; omega
  · simp only [hc, if_false]
    rw [idsOk_iff cnt pIDs (by omega)]
    cases hb : buildIds pIDs 0 cnt.toNat with
    | none => simp
    | some uIds =>
      have hl : uIds.length = cnt.toNat := ((buildIds_eq_some _ _ _ _).mp hb).1
      simp only [sort_length, hl, Option.isSome_some, true_and]
      by_cases hi : 0 ≤ idx ∧ idx < cnt
      · have hi' : 0 ≤ idx ∧ idx < (cnt.toNat : Int) := by omega
        simp only [hi', and_self, if_true, hi]
        cases hexDecode root <;> simp
      · have hi' : ¬ (0 ≤ idx ∧ idx < (cnt.toNat : Int)) := by omega
        simp [if_neg hi', hi, -Int.lt_toNat, -Int.ofNat_toNat]

/-- C13: anything but success leaves all parties alone. -/
theorem C13_failure_keeps_state (r : Reg) (key : Bytes) (idx cnt : Int) (pIDs : List Bytes) (root : Bytes)
    (h : (NewLocalParty r key idx cnt pIDs root).1 ≠ .ok ()) : (NewLocalParty r key idx cnt pIDs root).2 = r := by
  revert h
  unfold NewLocalParty
  by_cases hc : cnt < 0
  · simp [hc]
  · simp only [hc, if_false]
    cases buildIds pIDs 0 cnt.toNat with
    | none => simp
    | some uIds =>
      simp only
      split
      · cases hexDecode root <;> simp
      · simp

/-- C13: the party created: it sits at the requested index of the ids sorted by absolute value (which
carry their rank as index), its message slots are empty, its share is the root key, and it replaces
any party of that name; nothing else changes. -/
theorem C13_new_party (r : Reg) (key : Bytes) (idx cnt : Int) (pIDs : List Bytes) (root : Bytes) (r' : Reg)
    (h : NewLocalParty r key idx cnt pIDs root = (.ok (), r')) :
    ∃ p b, r' key = some p ∧ hexDecode root = some b ∧ p.save.privXi = some (beNat b : Int) ∧
      (p.index : Int) = idx ∧
      List.Perm (PartyID.Keys p.ids) ((pIDs.take cnt.toNat).map fun s => |(parseBig 10 s).getD 0|) ∧
      (PartyID.Keys p.ids).Pairwise (· ≤ ·) ∧
      (∀ (k : Nat) (q : PartyID), p.ids[k]? = some q → q.index = k) ∧
      p.m1 = List.replicate cnt.toNat [] ∧ p.m2 = List.replicate cnt.toNat [] ∧
      p.m3 = List.replicate cnt.toNat [] ∧
      ∀ k, k ≠ key → r' k = r k := by
  have hok : (NewLocalParty r key idx cnt pIDs root).1 = .ok () := by rw [h]
  obtain ⟨hids, hidx, b, hb⟩ := (C13_success_iff r key idx cnt pIDs root).mp hok
  have hs := (idsOk_iff cnt pIDs hids.1).mp hids
  obtain ⟨uIds, hu⟩ := Option.isSome_iff_exists.mp hs
  obtain ⟨hl, hu2⟩ := (buildIds_eq_some _ _ _ _).mp hu
  unfold NewLocalParty at h
  have hc : ¬ cnt < 0 := by omega
  have hi' : 0 ≤ idx ∧ idx < (cnt.toNat : Int) := by omega
  simp only [hc, if_false, hu, sort_length, hl, hi', and_self, if_true, hb, Prod.mk.injEq, true_and] at h
  subst h
  refine ⟨_, b, set_same _ _ _, hb, rfl, ?_, ?_, ?_, ?_, rfl, rfl, rfl, fun k hk => set_other r _ hk⟩
  · simp [freshParty, hidx.1]
  · have hk : PartyID.Keys (freshParty cnt.toNat idx.toNat (PartyID.SortPartyIDs uIds none) (beNat b)).ids
        = PartyID.Keys (PartyID.insertionSort uIds) := by
      simp only [freshParty, PartyID.SortPartyIDs, PartyID.assignIdx_keys]
    rw [hk]
    have h1 : List.Perm (PartyID.Keys (PartyID.insertionSort uIds)) (PartyID.Keys uIds) :=
      (PartyID.insertionSort_perm uIds).map _
    have h2 : PartyID.Keys uIds = (pIDs.take cnt.toNat).map fun s => |(parseBig 10 s).getD 0| := by
      apply List.ext_getElem?
      intro j
      simp only [PartyID.Keys, List.getElem?_map]
      by_cases hj : j < cnt.toNat
      · obtain ⟨s, k, e1, e2, e3⟩ := hu2 j hj
        simp only [Nat.zero_add] at e1 e3
        rw [e3, List.getElem?_take_of_lt hj, e1]
        simp only [Option.map_some, PartyID.keyInt, Option.getD_some, e2, intBytes, beNat_natBE]
        congr 1
        exact (Int.abs_eq_natAbs k).symm
      · rw [List.getElem?_eq_none (by omega), List.getElem?_eq_none (by simp; omega)]; rfl
    rw [← h2]; exact h1
  · have hk : PartyID.Keys (freshParty cnt.toNat idx.toNat (PartyID.SortPartyIDs uIds none) (beNat b)).ids
        = PartyID.Keys (PartyID.insertionSort uIds) := by
      simp only [freshParty, PartyID.SortPartyIDs, PartyID.assignIdx_keys]
    rw [hk]
    exact List.pairwise_map.mpr (PartyID.insertionSort_sorted uIds)
  · intro k q hq
    simp only [freshParty, PartyID.SortPartyIDs, PartyID.assignIdx_getElem?, Option.map_eq_some_iff] at hq
    obtain ⟨q0, -, rfl⟩ := hq
    simp

/-- a concrete creation: three ids, out of order, one negative -/
example : (NewLocalParty (fun _ => none) (ascii "k") 1 3 [ascii "30", ascii "-20", ascii "10"] (ascii "0a")).1
    = .ok () := by decide +kernel
/-- non-decimal id -/
example : (NewLocalParty (fun _ => none) (ascii "k") 1 2 [ascii "30", ascii "x"] (ascii "0a")).1 = .panic := by
  decide +kernel
/-- bad root key is an error -/
example : (NewLocalParty (fun _ => none) (ascii "k") 1 2 [ascii "30", ascii "1"] (ascii "0")).1 = .err .hexRoot := by
  decide +kernel

/-! ### C14 -/

/-- C14: success iff the text has one hexadecimal integer per party. -/
theorem C14_success_iff (r : Reg) (key codes : Bytes) (p : Party) (h : r key = some p) :
    (SaveChainCodes r key codes).1 = .ok () ↔
      (split 124 codes).length = p.save.pubXj.length ∧ ∀ s ∈ split 124 codes, ∃ v, parseBig 16 s = some v := by
  unfold SaveChainCodes
  rw [withParty_some _ h]
  by_cases hl : (split 124 codes).length = p.save.pubXj.length
  · simp only [hl, ne_eq, not_true_eq_false, if_false, true_and]
    cases hp : parseCodes 0 (split 124 codes) with
    | ok l =>
      have := (parseCodes_ok_iff _ _ _).mp hp
      simp only [true_iff]
      intro s hs
      have : parseBig 16 s ∈ l.map some := by rw [← this]; exact List.mem_map_of_mem hs
      obtain ⟨v, -, hv⟩ := List.mem_map.mp this
      exact ⟨v, hv.symm⟩
    | err e =>
      simp only [reduceCtorEq, false_iff]
      intro hall
      have : parseCodes 0 (split 124 codes) = .ok ((split 124 codes).map fun s => (parseBig 16 s).getD 0) := by
        rw [parseCodes_ok_iff, List.map_map]
        apply List.map_congr_left
        intro s hs
        obtain ⟨v, hv⟩ := hall s hs
        simp [hv]
      rw [hp] at this; cases this
    | panic => exact absurd hp (parseCodes_no_panic _ _)
  · simp [hl]

/-- C14: on success exactly the given values are stored and nothing else changes; on failure nothing
changes at all; it never crashes. -/
theorem C14_effect (r : Reg) (key codes : Bytes) (p : Party) (h : r key = some p) :
    (∃ l : List Int, (split 124 codes).map (parseBig 16) = l.map some ∧ l.length = p.save.pubXj.length ∧
      SaveChainCodes r key codes =
        (.ok (), r.set key (some { p with save := { p.save with chainCodes := l.map some } }))) ∨
    (∃ e, SaveChainCodes r key codes = (.err e, r)) := by
  unfold SaveChainCodes
  rw [withParty_some _ h]
  by_cases hl : (split 124 codes).length = p.save.pubXj.length
  · simp only [hl, ne_eq, not_true_eq_false, if_false]
    cases hp : parseCodes 0 (split 124 codes) with
    | ok l =>
      left
      have h1 := (parseCodes_ok_iff _ _ _).mp hp
      refine ⟨l, h1, ?_, rfl⟩
      have := congrArg List.length h1
      simp only [List.length_map] at this
      omega
    | err e => right; exact ⟨e, by simp [set_self r key p h]⟩
    | panic => exact absurd hp (parseCodes_no_panic _ _)
  · right
    refine ⟨.chainCount (split 124 codes).length p.save.pubXj.length, ?_⟩
    simp only [hl, ne_eq, not_false_eq_true, if_true, set_self r key p h]

example : split 124 (ascii "0a|ff") = [ascii "0a", ascii "ff"] := by decide +kernel

/-! ### C15 -/

/-- The party with other stored messages of a round and everything else unchanged. -/
def Round.put : Round → Party → List Bytes → Party
  | .one, p, l => { p with m1 := l }
  | .two, p, l => { p with m2 := l }
  | .three, p, l => { p with m3 := l }

theorem accept_eq (rd : Round) (r : Reg) (key : Bytes) (frm : Int) (msg : Bytes) :
    rd.accept r key frm msg = withParty r key (accept rd.kind rd.msgs rd.put frm msg) := by
  cases rd <;> rfl

/-- C15: text that is not base64 is an error without effect. -/
theorem C15_bad_base64 (rd : Round) (r : Reg) (key : Bytes) (p : Party) (h : r key = some p) (frm : Int)
    (msg : Bytes) (hm : b64Decode msg = none) : rd.accept r key frm msg = (.err .base64, r) := by
  rw [accept_eq, withParty_some _ h]
  simp [accept, hm, set_self r key p h]

/-- C15: a sender index outside the participants crashes, without effect on the stored state. -/
theorem C15_bad_sender (rd : Round) (r : Reg) (key : Bytes) (p : Party) (h : r key = some p) (frm : Int)
    (msg b : Bytes) (hm : b64Decode msg = some b) (hf : ¬ (0 ≤ frm ∧ frm < (rd.msgs p).length)) :
    rd.accept r key frm msg = (.panic, r) := by
  rw [accept_eq, withParty_some _ h]
  simp [accept, hm, hf, set_self r key p h]

/-- C15: otherwise exactly slot `frm` of that round of that party is written, and the answer is Ok for a
well-formed message of the round, an error for malformed bytes, a crash for a message of another type. -/
theorem C15_accept_effect (rd : Round) (r : Reg) (key : Bytes) (p : Party) (h : r key = some p) (frm : Int)
    (msg b : Bytes) (hm : b64Decode msg = some b) (hf : 0 ≤ frm ∧ frm < (rd.msgs p).length) :
    (rd.accept r key frm msg).2 = r.set key (some (rd.put p ((rd.msgs p).set frm.toNat b))) ∧
    ((rd.accept r key frm msg).1 = .ok () ↔ ∃ c, parseWireMsg b = some c ∧ c.kind = rd.kind) ∧
    ((rd.accept r key frm msg).1 = .err .parse ↔ parseWireMsg b = none) ∧
    ((rd.accept r key frm msg).1 = .panic ↔ ∃ c, parseWireMsg b = some c ∧ c.kind ≠ rd.kind) := by
  rw [accept_eq, withParty_some _ h]
  simp only [accept, hm, hf, and_self, if_true]
  cases hp : parseWireMsg b with
  | none => simp
  | some c =>
    by_cases hk : c.kind = rd.kind
    · simp [hk]
    · simp [hk]

/-- C15: in terms of slots: the other slots of the round, the other rounds, and all other fields stay. -/
theorem C15_other_slots (rd : Round) (p : Party) (frm : Nat) (b : Bytes) :
    (∀ j, j ≠ frm → (rd.msgs (rd.put p ((rd.msgs p).set frm b))).getD j [] = (rd.msgs p).getD j []) ∧
    (∀ rd', rd' ≠ rd → rd'.msgs (rd.put p ((rd.msgs p).set frm b)) = rd'.msgs p) ∧
    (rd.put p ((rd.msgs p).set frm b)).save = p.save ∧ (rd.put p ((rd.msgs p).set frm b)).tau = p.tau ∧
    (rd.put p ((rd.msgs p).set frm b)).srid = p.srid ∧ (rd.put p ((rd.msgs p).set frm b)).V = p.V ∧
    (rd.put p ((rd.msgs p).set frm b)).payload = p.payload := by
  refine ⟨?_, ?_, ?_⟩
  · intro j hj
    have : rd.msgs (rd.put p ((rd.msgs p).set frm b)) = (rd.msgs p).set frm b := by cases rd <;> rfl
    rw [this, getD_set]
    rw [if_neg (fun h => hj h.1.symm)]
  · intro rd' h
    cases rd <;> cases rd' <;> first | exact absurd rfl h | rfl
  · cases rd <;> exact ⟨rfl, rfl, rfl, rfl, rfl⟩

/-- a concrete two-party world for the examples -/
def exParty : Party := freshParty 2 0 [] 5
def exReg : Reg := fun k => if k = ascii "k" then some exParty else none

example : (KeygenRound1Accept exReg (ascii "k") 1 (b64Encode (wireBytes (.kg1 [7])))).1 = .ok () := by
  decide +kernel
example : (KeygenRound1Accept exReg (ascii "k") 1 (b64Encode (wireBytes (.sg3 [7])))).1 = .panic := by
  decide +kernel
example : (KeygenRound1Accept exReg (ascii "k") 2 (b64Encode (wireBytes (.kg1 [7])))).1 = .panic := by
  decide +kernel

/-! ### C17 -/

/-- C17: finish is Ok iff every other participant's message is present; nothing changes. -/
theorem C17_finish_iff (rd : Round) (r : Reg) (key : Bytes) (p : Party) (h : r key = some p) :
    (rd.finish r key).2 = r ∧
    ((rd.finish r key).1 = .ok () ↔ ∀ j, j < (rd.msgs p).length → j ≠ p.index → (rd.msgs p).getD j [] ≠ []) := by
  have e : rd.finish r key = withParty r key fun p => (Keygen.finish p.index 0 (rd.msgs p), p) := by
    cases rd <;> rfl
  rw [e, withParty_some _ h]
  refine ⟨set_self r key p h, ?_⟩
  simp only
  rw [finish_ok_iff]
  simp

/-- C17: otherwise the error names the smallest missing index; finish never crashes. -/
theorem C17_names_first_missing (rd : Round) (r : Reg) (key : Bytes) (p : Party) (h : r key = some p) :
    (rd.finish r key).1 = .ok () ∨
    ∃ j, j < (rd.msgs p).length ∧ (rd.finish r key).1 = .err (.msgNull j) ∧ j ≠ p.index ∧
      (rd.msgs p).getD j [] = [] ∧ ∀ i, i < j → i ≠ p.index → (rd.msgs p).getD i [] ≠ [] := by
  have e : rd.finish r key = withParty r key fun p => (Keygen.finish p.index 0 (rd.msgs p), p) := by
    cases rd <;> rfl
  rw [e, withParty_some _ h]
  simp only
  cases hf : Keygen.finish p.index 0 (rd.msgs p) with
  | ok u => left; rfl
  | err er =>
    right
    obtain ⟨j, h1, h2, h3, h4, h5⟩ := (finish_err_iff _ _ _ _).mp hf
    simp only [Nat.zero_add] at h2 h3 h5
    exact ⟨j, h1, by rw [h2], h3, h4, h5⟩
  | panic =>
    exfalso
    have : ∀ (k : Nat) (l : List Bytes), Keygen.finish p.index k l ≠ .panic := by
      intro k l
      induction l generalizing k with
      | nil => simp [Keygen.finish]
      | cons m t ih =>
        simp only [Keygen.finish]
        split
        · exact ih _
        · split
          · simp
          · exact ih _
    exact this _ _ hf

example : (KeygenRound1Finish exReg (ascii "k")).1 = .err (.msgNull 1) := by decide +kernel

/-! ### C16 -/

/-- C16: once every other message of the round is present, a malformed non-empty replacement from any
sender is answered with an error, is stored nevertheless, and finish still says Ok although the stored
message does not parse. -/
theorem C16_rejected_message_overwrites (rd : Round) (r : Reg) (key : Bytes) (p : Party) (h : r key = some p)
    (frm : Nat) (hf : frm < (rd.msgs p).length) (msg b : Bytes) (hm : b64Decode msg = some b) (hb : b ≠ [])
    (hbad : parseWireMsg b = none)
    (hall : ∀ j, j < (rd.msgs p).length → j ≠ p.index → (rd.msgs p).getD j [] ≠ []) :
    ∃ r', rd.accept r key frm msg = (.err .parse, r') ∧ (rd.finish r' key).1 = .ok () ∧
      ∃ p', r' key = some p' ∧ (rd.msgs p').getD frm [] = b := by
  obtain ⟨h1, -, h3, -⟩ := C15_accept_effect rd r key p h frm msg b hm ⟨by omega, by omega⟩
  have hr : rd.accept r key frm msg = (.err .parse, (rd.accept r key frm msg).2) := by
    rw [← h3.mpr hbad]
  refine ⟨_, hr, ?_⟩
  have hp' : (rd.accept r key frm msg).2 key = some (rd.put p ((rd.msgs p).set frm b)) := by
    rw [h1]; simp
  have hmm : rd.msgs (rd.put p ((rd.msgs p).set frm b)) = (rd.msgs p).set frm b := by cases rd <;> rfl
  have hidx : (rd.put p ((rd.msgs p).set frm b)).index = p.index := by cases rd <;> rfl
  constructor
  · rw [(C17_finish_iff rd _ key _ hp').2]
    intro j hj hji
    rw [hmm] at hj ⊢
    rw [hidx] at hji
    rw [List.length_set] at hj
    rw [getD_set]
    split
    · exact hb
    · exact hall j hj hji
  · refine ⟨_, hp', ?_⟩
    rw [hmm, getD_set]; simp [hf]

theorem forJ_not_ok {σ ε : Type} {step : σ → Nat → Res ε Unit × σ} (P : σ → Prop)
    (hP : ∀ s j, P s → P (step s j).2) (j0 : Nat) (hbad : ∀ s, P s → ∀ u, (step s j0).1 ≠ .ok u)
    (l : List Nat) (hl : j0 ∈ l) (s : σ) (hs : P s) (u : Unit) : (forJ step l s).1 ≠ .ok u := by
  induction l generalizing s with
  | nil => simp at hl
  | cons j t ih =>
    simp only [forJ]
    have h1 := hP s j hs
    cases hr : step s j with
    | mk r s1 =>
      rw [hr] at h1
      cases r with
      | err e => simp
      | panic => simp
      | ok a =>
        simp only
        rcases List.mem_cons.mp hl with rfl | hl
        · exact absurd (by rw [hr]) (hbad s hs a)
        · exact ih hl s1 h1

/-- C16: with a malformed round-1 message stored (from anybody), the next Exec does not succeed. -/
theorem C16_round2_then_fails (p : Party) (j : Nat) (hj : j < p.m1.length)
    (hbad : parseWireMsg (p.m1.getD j []) = none) : ∀ out, (r2Exec p).1 ≠ .ok out := by
  intro out
  have key := forJ_not_ok (step := r2Step) (fun s => s.m1 = p.m1)
    (by
      intro s k hs
      unfold r2Step
      split <;> exact hs) j
    (by
      intro s hs u
      simp only [r2Step, hs, hbad, ne_eq, reduceCtorEq, not_false_eq_true])
    (List.range p.m1.length) (List.mem_range.mpr hj) (resetOK { p with number := 2 }) rfl
  unfold r2Exec
  simp only
  have e : (resetOK { p with number := 2 }).m1.length = p.m1.length := rfl
  rw [e]
  cases hr : forJ r2Step (List.range p.m1.length) (resetOK { p with number := 2 }) with
  | mk r s1 =>
    cases r with
    | ok a => exact absurd (by rw [hr]) (key a)
    | err e => simp
    | panic => simp

/-- a concrete run: the good message is accepted, garbage replaces it, finish is Ok, round 2 fails. -/
example :
    let r1 := (KeygenRound1Accept exReg (ascii "k") 1 (b64Encode (wireBytes (.kg1 [7])))).2
    (KeygenRound1Finish r1 (ascii "k")).1 = .ok () ∧
    let r2 := KeygenRound1Accept r1 (ascii "k") 1 (ascii "AAAA")
    r2.1 = .err .parse ∧ (KeygenRound1Finish r2.2 (ascii "k")).1 = .ok () ∧
      (KeygenRound2Exec r2.2 (ascii "k")).1 = .err .parse := by decide +kernel

/-! ### C22 -/

/-- C22: a party created with an empty root key has share zero. -/
theorem C22_empty_root_zero (r : Reg) (key : Bytes) (idx cnt : Int) (pIDs : List Bytes) (r' : Reg)
    (h : NewLocalParty r key idx cnt pIDs [] = (.ok (), r')) :
    ∃ p, r' key = some p ∧ p.save.privXi = some 0 := by
  obtain ⟨p, b, h1, h2, h3, -⟩ := C13_new_party _ _ _ _ _ _ _ h
  simp only [hexDecode, Option.some.injEq] at h2
  subst h2
  exact ⟨p, h1, by simpa [beNat] using h3⟩

/-- C22: for a party that has a share, round 1 does not use the random share: its effect is the same for
every draw. -/
theorem C22_random_share_unused (e : Env) (rnd : Rand1) (v : Int) (p : Party) (x : Int)
    (h : p.save.privXi = some x) : r1Exec e rnd p = r1Exec e { rnd with priv := v } p := by
  simp [r1Exec, resetOK, h]

/-- C22: round 1 of a party with share zero publishes (commits to) the identity as its public share. -/
theorem C22_identity_share {G : Type} [AddCommGroup G] (e : Env) (L : Lawful e.c G) (rnd : Rand1) (p : Party)
    (h : p.save.privXi = some 0) (hi : p.index < p.save.pubXj.length) :
    ∃ p', (r1Exec e rnd p) = (.ok (wireBytes (.kg1 (commitHash e.H ssidConst p.index rnd.srid (L.pt 0)
      (L.pt (rnd.tau • L.base)) rnd.u))), p') ∧ p'.save.pubXj.getD p.index none = some (L.pt 0) := by
  simp only [r1Exec, resetOK, h, Option.getD_some, L.scalarBaseMult_pt, zero_smul]
  refine ⟨_, rfl, ?_⟩
  simp [hi]

/-- C22: every party that exists after any successful creation has a share, and no exported call removes
it: the accept and finish calls and the rounds keep a share once it is set. -/
theorem C22_share_never_nil (e : Env) (rnd : Rand1) (p : Party) (h : p.save.privXi ≠ none) :
    (r1Exec e rnd p).2.save.privXi = p.save.privXi ∧ (r2Exec p).2.save.privXi = p.save.privXi ∧
    (r3Exec e p).2.save.privXi = p.save.privXi ∧ (r4Exec e p).2.save.privXi = p.save.privXi := by
  obtain ⟨x, hx⟩ := Option.ne_none_iff_exists'.mp h
  refine ⟨?_, ?_, ?_, ?_⟩
  · unfold r1Exec
    simp only [resetOK, hx, Option.getD_some]
    split <;> rfl
  · have key := forJ_inv (step := r2Step) (fun s => s.save = p.save)
      (by
        intro s j hs
        unfold r2Step
        split <;> exact hs) (List.range p.m1.length) (resetOK { p with number := 2 }) rfl
    unfold r2Exec
    simp only
    have e0 : (resetOK { p with number := 2 }).m1.length = p.m1.length := rfl
    rw [e0]
    cases hr : forJ r2Step (List.range p.m1.length) (resetOK { p with number := 2 }) with
    | mk r s1 =>
      rw [hr] at key
      cases r <;> simp only
      · split <;> exact congrArg SaveData.privXi key
      · exact congrArg SaveData.privXi key
      · exact congrArg SaveData.privXi key
  · have key := forJ_inv (step := r3Step e) (fun s => s.save.privXi = p.save.privXi)
      (by
        intro s j hs
        unfold r3Step
        split
        · exact hs
        · split
          · exact hs
          · split
            · exact hs
            · simp only
              split
              · exact hs
              · split
                · exact hs
                · split <;> exact hs
          · exact hs) (List.range p.m2.length) (resetOK { p with number := 3 }) rfl
    unfold r3Exec
    simp only
    have e0 : (resetOK { p with number := 3 }).m2.length = p.m2.length := rfl
    rw [e0]
    cases hr : forJ (r3Step e) (List.range p.m2.length) (resetOK { p with number := 3 }) with
    | mk r s1 =>
      rw [hr] at key
      cases r <;> simp only
      · split <;> exact key
      · exact key
      · exact key
  · have key := forJ_inv (step := r4Step e) (fun s => s.save.privXi = p.save.privXi)
      (by
        intro s j hs
        unfold r4Step
        split
        · exact hs
        · split
          · exact hs
          · split
            · simp only
              split
              · split <;> exact hs
              · exact hs
            · exact hs) (List.range p.m3.length) (resetOK { p with number := 4 }) rfl
    unfold r4Exec
    simp only
    have e0 : (resetOK { p with number := 4 }).m3.length = p.m3.length := rfl
    rw [e0]
    cases hr : forJ (r4Step e) (List.range p.m3.length) (resetOK { p with number := 4 }) with
    | mk r s1 =>
      rw [hr] at key
      cases r <;> simp only
      · split
        · split
          · split <;> exact key
          · exact key
          · exact key
        · exact key
      · exact key
      · exact key

end Tss.Keygen
