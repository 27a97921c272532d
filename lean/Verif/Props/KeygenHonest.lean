import Verif.Lemmas.KeygenHonest
import Mathlib.Algebra.Order.BigOperators.Group.Finset
/-! C21: honest key generation. -/
namespace Tss.Keygen
open Tss Text Wire

variable {G : Type} [AddCommGroup G]

/-- The inputs make sense: different registry keys, at least `n` well-formed decimal ids, hex root keys,
and bounded sizes; and saving the result never fails. -/
structure Good (e : Env) (L : Lawful e.c G) (S : Session) : Prop where
  keys : ∀ i j, i < S.n → j < S.n → S.key i = S.key j → i = j
  ids : IdsOk S.n S.pIDs
  roots : ∀ i, i < S.n → ∃ b, hexDecode (S.root i) = some b
  sizes : Sizes e L S
  json : ∀ sv, (e.jsonEnc sv).isSome

/-- network invariant -/
structure NI (e : Env) (L : Lawful e.c G) (S : Session) (s : Net) : Prop where
  party : ∀ i, i < S.n → s.stage i = 0 ∨
    ∃ p, s.reg (S.key i) = some p ∧ PI e L S i (s.stage i) (fun rd j => s.got rd i j) p
  le5 : ∀ i, i < S.n → s.stage i ≤ 5
  sent : ∀ rd i w, i < S.n → s.sent rd i = some w → w = wireBytes (cont e L S rd i)
  sent_iff : ∀ (rd : Round) i, i < S.n → ((s.sent rd i).isSome ↔ rd.num + 1 ≤ s.stage i)
  early : ∀ i, i < S.n → s.stage i = 0 → ∀ rd j, s.got rd i j = false
  final : ∀ i out, i < S.n → s.final i = some out →
    ∃ p, s.stage i = 5 ∧ e.jsonEnc p = some out ∧ p.eddsaPub = some (jointPub e L S) ∧ p.privXi = some (S.x i) ∧
      (p.pubXj = (List.range S.n).map fun j => some (shareX e L S j)) ∧ p.ks = (PartyID.Keys (sortedIds S)).map some ∧
      p.shareID = (PartyID.Keys (sortedIds S))[i]?
  final_some : ∀ i, i < S.n → s.stage i = 5 → (s.final i).isSome

theorem other_step (e : Env) (op : Op) (r : Reg) (k : Bytes) (h : op.key ≠ k) : (op.run e r).2 k = r k := by
  have h' : k ≠ op.key := fun e => h e.symm
  cases op with
  | new key idx cnt pIDs root =>
    simp only [Op.run, NewLocalParty]
    split
    · rfl
    · split
      · rfl
      · split
        · split
          · rfl
          · exact set_other _ _ h'
        · rfl
  | remove key =>
    simp only [Op.run, RemoveParty]
    split
    · rfl
    · exact set_other _ _ h'
  | acc rd key frm msg => simp only [Op.run, accept_eq]; exact withParty_other _ _ h'
  | fin rd key => cases rd <;> exact withParty_other _ _ h'
  | saveChain key codes => exact withParty_other _ _ h'
  | exec1 key rnd => exact withParty_other _ _ h'
  | exec2 key => exact withParty_other _ _ h'
  | exec3 key => exact withParty_other _ _ h'
  | exec4 key => exact withParty_other _ _ h'

theorem pubXj_eq {e : Env} {L : Lawful e.c G} {S : Session} {i k : Nat} {got : Round → Nat → Bool} {p : Party}
    (h : PI e L S i k got p) (hk : 4 ≤ k) :
    p.save.pubXj = (List.range S.n).map fun j => some (shareX e L S j) := by
  apply List.ext_getElem
  · rw [h.lpub]; simp
  · intro j h1 h2
    have hj : j < S.n := by rw [← h.lpub]; exact h1
    have := (h.s3 hk j hj).1
    rw [List.getD_eq_getElem?_getD, List.getElem?_eq_getElem h1] at this
    simpa using this

/-- every step of an honest network keeps the invariant and returns Ok -/
theorem step_ok {e : Env} {L : Lawful e.c G} {S : Session} (hg : Good e L S) {s s' : Net} {out : Res Err Bytes}
    (hs : NI e L S s) (h : Step e S s out s') : (∃ b, out = .ok b) ∧ NI e L S s' := by
  cases h with
  | create i hi h0 q hq =>
    have hok := (C13_success_iff s.reg (S.key i) i S.n S.pIDs (S.root i)).mpr
      ⟨hg.ids, ⟨by omega, by omega⟩, hg.roots i hi⟩
    obtain ⟨b, hb⟩ := hg.roots i hi
    obtain ⟨uIds, hu⟩ : ∃ u, buildIds S.pIDs 0 S.n = some u := by
      have := (idsOk_iff S.n S.pIDs (by omega)).mp hg.ids
      simpa using Option.isSome_iff_exists.mp this
    have hreg : q = (.ok (), s.reg.set (S.key i) (some (freshParty S.n i (sortedIds S) (S.x i)))) := by
      have hso : sortedIds S = PartyID.SortPartyIDs uIds none := by unfold sortedIds; rw [hu]; rfl
      rw [hso]
      rw [hq]
      rw [hq] at *
      unfold NewLocalParty at hok ⊢
      have c1 : ¬ ((S.n : Int) < 0) := by omega
      simp only [c1, if_false, Int.toNat_natCast, hu] at hok ⊢
      split at hok
      · next hc =>
        simp only [hc, and_self, if_true, hb]
        simp [Session.x, hb]
      · cases hok
    rw [hreg]
    refine ⟨⟨_, rfl⟩, ?_⟩
    constructor
    · intro j hj
      simp only
      by_cases hji : j = i
      · subst hji
        right
        refine ⟨_, set_same _ _ _, ?_⟩
        simp only [if_true]
        exact PI.fresh _ _ (fun rd k => hs.early j hj h0 rd k)
      · simp only [hji, if_false]
        rcases hs.party j hj with h1 | ⟨p, h1, h2⟩
        · exact .inl h1
        · refine .inr ⟨p, ?_, h2⟩
          rw [set_other _ _ (fun e => hji (hg.keys j i hj hi e))]; exact h1
    · intro j hj; simp only; split
      · omega
      · exact hs.le5 j hj
    · intro rd j w hj hw; exact hs.sent rd j w hj hw
    · intro rd j hj
      simp only
      rw [hs.sent_iff rd j hj]
      split
      · next hji => subst hji; rw [h0]; cases rd <;> simp [Round.num]
      · rfl
    · intro j hj
      simp only
      split
      · intro h; cases h
      · exact hs.early j hj
    · intro j out hj ho
      obtain ⟨p, h1, h2⟩ := hs.final j out hj ho
      have hji : j ≠ i := by rintro rfl; omega
      exact ⟨p, by simp only [hji, if_false]; exact h1, h2⟩
    · intro j hj
      simp only
      split
      · intro h; cases h
      · exact hs.final_some j hj
  | exec rd i hi h hr q hq =>
    have hst : s.stage i ≠ 0 := by cases rd <;> simp [Round.num] at h <;> omega
    rcases hs.party i hi with h1 | ⟨p, h1, h2⟩
    · exact absurd h1 hst
    rw [h] at h2
    have hex : ∃ p', q = (.ok (wireBytes (cont e L S rd i)), s.reg.set (S.key i) (some p')) ∧
        PI e L S i (rd.num + 1) (fun rd j => s.got rd i j) p' := by
      cases rd with
      | one =>
        obtain ⟨p', a, b⟩ := PI.exec1 h2 hi
        refine ⟨p', ?_, b⟩
        rw [hq]
        simp only [Round.exec, KeygenRound1Exec, withParty_some _ h1, a]
      | two =>
        obtain ⟨p', a, b⟩ := PI.exec2 hg.sizes h2 hi (fun j hj hji => hr .one rfl j hj hji)
        refine ⟨p', ?_, b⟩
        rw [hq]
        simp only [Round.exec, KeygenRound2Exec, withParty_some _ h1, a]
      | three =>
        obtain ⟨p', a, b⟩ := PI.exec3 hg.sizes h2 hi (fun j hj hji => hr .two rfl j hj hji)
        refine ⟨p', ?_, b⟩
        rw [hq]
        simp only [Round.exec, KeygenRound3Exec, withParty_some _ h1, a]
    obtain ⟨p', hq', hp'⟩ := hex
    rw [hq']
    refine ⟨⟨_, rfl⟩, ?_⟩
    have hnum : rd.num ≤ 3 := by cases rd <;> simp [Round.num]
    constructor
    · intro j hj
      simp only
      by_cases hji : j = i
      · subst hji
        right
        simp only [if_true]
        exact ⟨p', set_same _ _ _, hp'⟩
      · simp only [hji, if_false]
        rcases hs.party j hj with g1 | ⟨p2, g1, g2⟩
        · exact .inl g1
        · refine .inr ⟨p2, ?_, g2⟩
          rw [set_other _ _ (fun e => hji (hg.keys j i hj hi e))]; exact g1
    · intro j hj; simp only; split
      · omega
      · exact hs.le5 j hj
    · intro rd' j w hj hw
      simp only at hw
      split at hw
      · next hc =>
        simp only [Res.data, Option.some.injEq] at hw
        rw [← hw, hc.1, hc.2]
      · exact hs.sent rd' j w hj hw
    · intro rd' j hj
      simp only
      by_cases hji : j = i
      · subst hji
        simp only [if_true]
        have := hs.sent_iff rd' j hj
        rw [h] at this
        by_cases hrd : rd' = rd
        · subst hrd; simp [Res.data]
        · rw [if_neg (by simp [hrd]), this]
          have hne : rd'.num ≠ rd.num := by
            intro hc; apply hrd; cases rd <;> cases rd' <;> simp [Round.num] at hc ⊢
          omega
      · simp only [hji, and_false, if_false]
        exact hs.sent_iff rd' j hj
    · intro j hj
      simp only
      split
      · intro h; omega
      · exact hs.early j hj
    · intro j out hj ho
      obtain ⟨p2, g1, g2⟩ := hs.final j out hj ho
      have hji : j ≠ i := by rintro rfl; omega
      exact ⟨p2, by simp only [hji, if_false]; exact g1, g2⟩
    · intro j hj
      simp only
      split
      · intro h; omega
      · exact hs.final_some j hj
  | exec4 i hi h hr q hq =>
    have hst : s.stage i ≠ 0 := by omega
    rcases hs.party i hi with h1 | ⟨p, h1, h2⟩
    · exact absurd h1 hst
    rw [h] at h2
    obtain ⟨p', o, a, b, c, d⟩ := PI.exec4 hg.sizes h2 hi (fun j hj hji => hr .three rfl j hj hji) hg.json
    have hq' : q = (.ok o, s.reg.set (S.key i) (some p')) := by
      rw [hq]; simp only [KeygenRound4Exec, withParty_some _ h1, a]
    rw [hq']
    refine ⟨⟨_, rfl⟩, ?_⟩
    constructor
    · intro j hj
      simp only
      by_cases hji : j = i
      · subst hji
        right
        simp only [if_true]
        exact ⟨p', set_same _ _ _, d⟩
      · simp only [hji, if_false]
        rcases hs.party j hj with g1 | ⟨p2, g1, g2⟩
        · exact .inl g1
        · refine .inr ⟨p2, ?_, g2⟩
          rw [set_other _ _ (fun e => hji (hg.keys j i hj hi e))]; exact g1
    · intro j hj; simp only; split
      · omega
      · exact hs.le5 j hj
    · intro rd' j w hj hw; exact hs.sent rd' j w hj hw
    · intro rd' j hj
      simp only
      rw [hs.sent_iff rd' j hj]
      split
      · next hji => subst hji; rw [h]; cases rd' <;> simp [Round.num]
      · rfl
    · intro j hj
      simp only
      split
      · intro h; cases h
      · exact hs.early j hj
    · intro j out hj ho
      simp only at ho ⊢
      by_cases hji : j = i
      · subst hji
        simp only [if_true, Res.data, Option.some.injEq] at ho
        subst ho
        refine ⟨p'.save, by simp, b, d.s4 (by omega), d.priv, pubXj_eq d (by omega), d.idk.2 (by omega)⟩
      · simp only [hji, if_false] at ho ⊢
        exact hs.final j out hj ho
    · intro j hj
      simp only
      by_cases hji : j = i
      · simp [hji, Res.data]
      · simp only [hji, if_false]; exact hs.final_some j hj
  | deliver rd i j hi hj h w hw q hq =>
    rcases hs.party i hi with h1 | ⟨p, h1, h2⟩
    · omega
    have hw' := hs.sent rd j w hj hw
    subst hw'
    have hdec : b64Decode (b64Encode (wireBytes (cont e L S rd j))) = some (wireBytes (cont e L S rd j)) := b64_round_trip _
    obtain ⟨a1, a2, -, -⟩ := C15_accept_effect rd s.reg (S.key i) p h1 j _ _ hdec
      ⟨by omega, by rw [h2.lm]; omega⟩
    have hok : q.1 = .ok () := by
      rw [hq]
      refine a2.mpr ⟨_, parse_cont hg.sizes rd j hj, ?_⟩
      cases rd <;> rfl
    rw [← hq] at a1
    rw [hok]
    refine ⟨⟨_, rfl⟩, ?_⟩
    constructor
    · intro k hk
      simp only
      by_cases hki : k = i
      · subst hki
        right
        refine ⟨_, by rw [a1]; exact set_same _ _ _, ?_⟩
        rw [Int.toNat_natCast]
        refine h2.store rd ?_ hj
        intro rd' j' hh
        simp only [true_and] at hh
        split at hh
        · next hc => exact .inr hc
        · exact .inl hh
      · simp only [hki, false_and, and_false, if_false]
        rcases hs.party k hk with g1 | ⟨p2, g1, g2⟩
        · exact .inl g1
        · refine .inr ⟨p2, ?_, g2⟩
          rw [a1, set_other _ _ (fun e => hki (hg.keys k i hk hi e))]; exact g1
    · exact hs.le5
    · exact hs.sent
    · exact hs.sent_iff
    · intro k hk h0 rd' j'
      simp only
      have h0' : s.stage k = 0 := h0
      have hki : k ≠ i := by rintro rfl; omega
      simp only [hki, false_and, and_false, if_false]
      exact hs.early k hk h0 rd' j'
    · exact hs.final
    · exact hs.final_some

theorem noise_ok {e : Env} {L : Lawful e.c G} {S : Session} {s s' : Net}
    (hs : NI e L S s) (h : Noise e S s s') : NI e L S s' := by
  have lift : ∀ r : Reg, (∀ i, i < S.n → ∀ p, s.reg (S.key i) = some p →
      PI e L S i (s.stage i) (fun rd j => s.got rd i j) p →
      ∃ q, r (S.key i) = some q ∧ PI e L S i (s.stage i) (fun rd j => s.got rd i j) q) → NI e L S { s with reg := r } := by
    intro r hr
    refine ⟨?_, hs.le5, hs.sent, hs.sent_iff, hs.early, hs.final, hs.final_some⟩
    intro i hi
    rcases hs.party i hi with h1 | ⟨p, h1, h2⟩
    · exact .inl h1
    · exact .inr (hr i hi p h1 h2)
  cases h with
  | chain i hi codes =>
    refine lift _ (fun k hk p h1 h2 => ?_)
    by_cases hki : S.key k = S.key i
    · rw [← hki]
      rcases C14_effect s.reg (S.key k) codes p h1 with ⟨l, -, -, hh⟩ | ⟨er, hh⟩
      · rw [hh]
        exact ⟨_, set_same _ _ _, h2.congr rfl (fun rd => by cases rd <;> rfl) rfl rfl rfl rfl rfl rfl rfl rfl rfl rfl rfl rfl rfl⟩
      · rw [hh]; exact ⟨p, h1, h2⟩
    · exact ⟨p, by rw [SaveChainCodes, withParty_other _ _ hki]; exact h1, h2⟩
  | poll rd i hi =>
    refine lift _ (fun k hk p h1 h2 => ⟨p, ?_, h2⟩)
    cases hp : s.reg (S.key i) with
    | none => cases rd <;> (simp only [Round.finish, KeygenRound1Finish, KeygenRound2Finish, KeygenRound3Finish]; rw [withParty_none _ hp]; exact h1)
    | some q => rw [(C17_finish_iff rd s.reg (S.key i) q hp).1]; exact h1
  | other op ho =>
    refine lift _ (fun k hk p h1 h2 => ⟨p, ?_, h2⟩)
    rw [other_step e op s.reg (S.key k) (ho k hk)]; exact h1

theorem run_inv {e : Env} {L : Lawful e.c G} {S : Session} (hg : Good e L S) {s : Net} (h : Run e S s) : NI e L S s := by
  induction h with
  | init r =>
    constructor
    · intro i _; exact .inl rfl
    · intro i _; simp
    · intro rd i w _ h; cases h
    · intro rd i _; simp
    · intros; rfl
    · intro i out _ h; cases h
    · intro i _ h; cases h
  | step _ hst ih => exact (step_ok hg ih hst).2
  | noise _ hst ih => exact noise_ok ih hst

/-- C21: whatever the order and repetition of deliveries and the interleaving of the parties (and of any
unrelated calls), every call the honest parties make returns Ok. -/
theorem C21_every_call_ok (e : Env) (L : Lawful e.c G) (S : Session) (hg : Good e L S) (s s' : Net) (out : Res Err Bytes)
    (hr : Run e S s) (h : Step e S s out s') : ∃ b, out = .ok b :=
  (step_ok hg (run_inv hg hr) h).1

theorem agreement_inv {e : Env} {L : Lawful e.c G} {S : Session} {s : Net} (hs : NI e L S s)
    (i : Nat) (hi : i < S.n) (h5 : s.stage i = 5) :
    ∃ p sv out, s.reg (S.key i) = some p ∧ s.final i = some out ∧ e.jsonEnc sv = some out ∧
      p.save.eddsaPub = some (L.pt (((List.range S.n).map S.x).sum • L.base)) ∧
      p.save.privXi = some (S.x i) ∧
      p.save.pubXj = ((List.range S.n).map fun j => some (L.pt (S.x j • L.base))) ∧
      sv.eddsaPub = p.save.eddsaPub ∧ sv.privXi = p.save.privXi ∧ sv.pubXj = p.save.pubXj := by
  obtain ⟨out, ho⟩ := Option.isSome_iff_exists.mp (hs.final_some i hi h5)
  obtain ⟨sv, -, a1, a2, a3, a4, -⟩ := hs.final i out hi ho
  rcases hs.party i hi with h1 | ⟨p, h1, h2⟩
  · omega
  · have b1 := h2.s4 (by omega)
    have b2 := h2.priv
    have b3 := pubXj_eq h2 (by omega)
    exact ⟨p, sv, out, h1, ho, a1, b1, b2, b3, by rw [a2, b1], by rw [a3, b2], by rw [a4, b3]⟩

/-- C21: every party that has finished holds the joint public key, which is the sum of the root keys times
the base point, its own root key, and for every party the root key times the base point; and that is
what its last call returned. -/
theorem C21_agreement (e : Env) (L : Lawful e.c G) (S : Session) (hg : Good e L S) (s : Net) (hr : Run e S s)
    (i : Nat) (hi : i < S.n) (h5 : s.stage i = 5) :
    ∃ p sv out, s.reg (S.key i) = some p ∧ s.final i = some out ∧ e.jsonEnc sv = some out ∧
      p.save.eddsaPub = some (L.pt (((List.range S.n).map S.x).sum • L.base)) ∧
      p.save.privXi = some (S.x i) ∧
      p.save.pubXj = ((List.range S.n).map fun j => some (L.pt (S.x j • L.base))) ∧
      sv.eddsaPub = p.save.eddsaPub ∧ sv.privXi = p.save.privXi ∧ sv.pubXj = p.save.pubXj :=
  agreement_inv (run_inv hg hr) i hi h5

/-- C21: when all messages of a round have arrived, finish of that round says Ok. -/
theorem C21_finish (e : Env) (L : Lawful e.c G) (S : Session) (hg : Good e L S) (s : Net) (hr : Run e S s) (rd : Round)
    (i : Nat) (hi : i < S.n) (h1 : 1 ≤ s.stage i) (hall : ∀ j, j < S.n → j ≠ i → s.got rd i j = true) :
    (rd.finish s.reg (S.key i)).1 = .ok () := by
  rcases (run_inv hg hr).party i hi with h | ⟨p, h2, h3⟩
  · omega
  · refine (C17_finish_iff rd s.reg (S.key i) p h2).2.mpr ?_
    intro j hj hji
    rw [h3.recv rd j (hall j (by rw [← h3.lm rd]; exact hj) (by rw [← h3.index]; exact hji))]
    intro hnil
    have := parse_cont hg.sizes rd j (by rw [← h3.lm rd]; exact hj)
    rw [hnil] at this
    rw [show parseWireMsg [] = none by decide] at this
    cases this

theorem no_deadlock {e : Env} {L : Lawful e.c G} {S : Session} {s : Net} (hs : NI e L S s)
    (hn : ∃ i, i < S.n ∧ s.stage i ≠ 5) :
    (∃ rd i j w, i < S.n ∧ j < S.n ∧ 1 ≤ s.stage i ∧ s.sent rd j = some w ∧ s.got rd i j = false) ∨
    (∃ i out s', i < S.n ∧ s'.stage i = s.stage i + 1 ∧ Step e S s out s') := by
  -- a party with the least stage
  obtain ⟨i, hi, hmin⟩ : ∃ i, i < S.n ∧ ∀ j, j < S.n → s.stage i ≤ s.stage j := by
    obtain ⟨i0, hi0, -⟩ := hn
    obtain ⟨i, hi, hm⟩ := Finset.exists_min_image (Finset.range S.n) s.stage ⟨i0, by simpa using hi0⟩
    exact ⟨i, by simpa using hi, fun j hj => hm j (by simpa using hj)⟩
  have hi5 : s.stage i < 5 := by
    obtain ⟨k, hk, hk5⟩ := hn
    have := hs.le5 k hk
    have := hmin k hk
    omega
  by_cases h0 : s.stage i = 0
  · right
    exact ⟨i, _, _, hi, by simp [h0], Step.create s i hi h0 _ rfl⟩
  by_cases hready : s.ready S i (s.stage i)
  · right
    have : s.stage i = 1 ∨ s.stage i = 2 ∨ s.stage i = 3 ∨ s.stage i = 4 := by omega
    rcases this with h | h | h | h
    · exact ⟨i, _, _, hi, by simp [h, Round.num], Step.exec s .one i hi h (by rw [h] at hready; exact hready) _ rfl⟩
    · exact ⟨i, _, _, hi, by simp [h, Round.num], Step.exec s .two i hi h (by rw [h] at hready; exact hready) _ rfl⟩
    · exact ⟨i, _, _, hi, by simp [h, Round.num], Step.exec s .three i hi h (by rw [h] at hready; exact hready) _ rfl⟩
    · exact ⟨i, _, _, hi, by simp [h], Step.exec4 s i hi h (by rw [h] at hready; exact hready) _ rfl⟩
  · left
    unfold Net.ready at hready
    push Not at hready
    obtain ⟨rd, hrd, j, hj, hji, hgot⟩ := hready
    obtain ⟨w, hw⟩ := Option.isSome_iff_exists.mp ((hs.sent_iff rd j hj).mpr (by have := hmin j hj; omega))
    exact ⟨rd, i, j, w, hi, hj, by omega, hw, by simpa using hgot⟩

/-- C21: the protocol cannot get stuck: as long as some party has not finished, either some message that
was sent has not been delivered, or some party can run its next call. -/
theorem C21_no_deadlock (e : Env) (L : Lawful e.c G) (S : Session) (hg : Good e L S) (s : Net) (hr : Run e S s)
    (hn : ∃ i, i < S.n ∧ s.stage i ≠ 5) :
    (∃ rd i j w, i < S.n ∧ j < S.n ∧ 1 ≤ s.stage i ∧ s.sent rd j = some w ∧ s.got rd i j = false) ∨
    (∃ i out s', i < S.n ∧ s'.stage i = s.stage i + 1 ∧ Step e S s out s') :=
  no_deadlock (run_inv hg hr) hn

/-- rounds still to run plus deliveries still to make -/
def todo (S : Session) (s : Net) : Nat :=
  (∑ i ∈ Finset.range S.n, (5 - s.stage i)) +
    ∑ i ∈ Finset.range S.n, ∑ j ∈ Finset.range S.n,
      ((if s.got .one i j then 0 else 1) + (if s.got .two i j then 0 else 1) + (if s.got .three i j then 0 else 1))

theorem Steps.run {e : Env} {S : Session} {s s' : Net} (h : Steps e S s s') : Run e S s → Run e S s' := by
  induction h with
  | refl _ => exact id
  | head h1 _ ih => exact fun hr => ih (.step hr h1)

theorem can_finish {e : Env} {L : Lawful e.c G} {S : Session} (hg : Good e L S) (s : Net) (hs : NI e L S s) :
    ∃ s', Steps e S s s' ∧ ∀ i, i < S.n → s'.stage i = 5 := by
  induction hM : todo S s using Nat.strong_induction_on generalizing s with
  | _ M ih =>
    by_cases hdone : ∀ i, i < S.n → s.stage i = 5
    · exact ⟨s, .refl s, hdone⟩
    push Not at hdone
    have next : ∀ {out : Res Err Bytes} {s1 : Net}, Step e S s out s1 → todo S s1 < M →
        ∃ s', Steps e S s s' ∧ ∀ i, i < S.n → s'.stage i = 5 := by
      intro out s1 h hl
      obtain ⟨s2, a, b⟩ := ih _ hl _ (step_ok hg hs h).2 rfl
      exact ⟨s2, .head h a, b⟩
    rcases no_deadlock hs hdone with ⟨rd, i, j, w, hi, hj, h1, hw, hgot⟩ | ⟨i, out, s', hi, hst, hstep⟩
    · have hstep := Step.deliver (e := e) (S := S) s rd i j hi hj h1 w hw _ rfl
      refine next hstep ?_
      rw [← hM]
      unfold todo
      apply Nat.add_lt_add_left
      have hmono : ∀ i' j' (rd' : Round), (if (if rd' = rd ∧ i' = i ∧ j' = j then true else s.got rd' i' j') then 0 else 1) ≤
          (if s.got rd' i' j' then 0 else 1) := by
        intro i' j' rd'
        split_ifs <;> simp_all
      refine Finset.sum_lt_sum (fun i' _ => Finset.sum_le_sum fun j' _ => ?_) ⟨i, by simpa using hi, ?_⟩
      · exact Nat.add_le_add (Nat.add_le_add (hmono _ _ _) (hmono _ _ _)) (hmono _ _ _)
      · refine Finset.sum_lt_sum (fun j' _ => ?_) ⟨j, by simpa using hj, ?_⟩
        · exact Nat.add_le_add (Nat.add_le_add (hmono _ _ _) (hmono _ _ _)) (hmono _ _ _)
        · cases rd <;> simp [hgot]
    · refine next hstep ?_
      rw [← hM]
      have hs' := (step_ok hg hs hstep).2
      have hi5 := hs'.le5 i hi
      have hothers : (∀ k, k ≠ i → s'.stage k = s.stage k) ∧ s'.got = s.got := by
        cases hstep with
        | create i2 _ _ q hq =>
          simp only at hst
          split at hst
          · next h => subst h; exact ⟨fun k hk => by simp [hk], rfl⟩
          · omega
        | exec rd i2 _ _ _ q hq =>
          simp only at hst
          split at hst
          · next h => subst h; exact ⟨fun k hk => by simp [hk], rfl⟩
          · omega
        | exec4 i2 _ _ _ q hq =>
          simp only at hst
          split at hst
          · next h => subst h; exact ⟨fun k hk => by simp [hk], rfl⟩
          · omega
        | deliver rd i2 j _ _ _ w _ q hq => simp only at hst; omega
      unfold todo
      rw [hothers.2]
      apply Nat.add_lt_add_right
      refine Finset.sum_lt_sum (fun k _ => ?_) ⟨i, by simpa using hi, by omega⟩
      by_cases hk : k = i
      · subst hk; omega
      · rw [hothers.1 k hk]

/-- C21: from every state an honest run can reach, the run can be completed by all parties. -/
theorem C21_can_finish (e : Env) (L : Lawful e.c G) (S : Session) (hg : Good e L S) (s : Net) (hr : Run e S s) :
    ∃ s', Steps e S s s' ∧ ∀ i, i < S.n → s'.stage i = 5 := can_finish hg s (run_inv hg hr)

/-! ### a concrete session meeting the hypotheses -/

/-- three parties on the toy curve, with a hash that depends on its input -/
def exEnv : Env where
  c := toyCurve
  H b := [UInt8.ofNat (beNat b % 251), UInt8.ofNat b.length]
  jsonEnc _ := some [123, 125]

/-- ids "5", "17", "3"; roots "07", "0a", "" -/
def exSession : Session where
  n := 3
  key i := [UInt8.ofNat i]
  pIDs := [ascii "5", ascii "17", ascii "3"]
  root i := if i = 0 then ascii "07" else if i = 1 then ascii "0a" else []
  rnd i := ⟨0, 4 + i, [1, 2], [UInt8.ofNat (7 * i), 9]⟩

theorem exGood : Good exEnv toyLawful exSession where
  keys i j hi hj h := by
    simp only [exSession, List.cons.injEq, and_true] at h hi hj
    have h2 := congrArg UInt8.toNat h
    simp only [UInt8.toNat_ofNat'] at h2
    omega
  ids := by
    rw [idsOk_iff _ _ (by simp [exSession])]
    decide +kernel
  roots i hi := by
    simp only [exSession] at hi ⊢
    split
    · exact ⟨[7], by decide⟩
    · split
      · exact ⟨[10], by decide⟩
      · exact ⟨[], by decide⟩
  sizes := {
    coords := fun g => by
      have h1 := ZMod.val_lt g.1
      have h2 := ZMod.val_lt g.2
      simp only [toyLawful]
      have h3 : (256 : Int) ≤ 256 ^ 32 := by norm_num
      refine ⟨by omega, by omega, by omega, by omega⟩
    order := by simp [exEnv, toyCurve]
    hash := fun b => by simp [exEnv]
    draws := fun i _ => by simp [exSession] }
  json sv := rfl

/-- so the three toy parties can all finish, with public key 17·G = 6·G -/
example : ∃ s, Run exEnv exSession s ∧ ∀ i, i < 3 → ∃ p, s.reg [UInt8.ofNat i] = some p ∧
    p.save.eddsaPub = some ⟨6, 0⟩ := by
  obtain ⟨s, h1, h2⟩ := C21_can_finish exEnv toyLawful exSession exGood _ (Run.init fun _ => none)
  replace h1 := h1.run (Run.init fun _ => none)
  refine ⟨s, h1, fun i hi => ?_⟩
  obtain ⟨p, -, -, a, -, -, b, -⟩ := C21_agreement exEnv toyLawful exSession exGood s h1 i hi (h2 i hi)
  refine ⟨p, a, ?_⟩
  rw [b]
  decide +kernel

end Tss.Keygen
