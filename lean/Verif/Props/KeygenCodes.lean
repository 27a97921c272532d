import Verif.Lemmas.KeygenFixed
import Verif.Props.Keygen
/-
Property C14, over histories: which chain codes the saved record holds.
-/
namespace Tss.Keygen
open Tss Text Wire

/-- The registry after a list of calls. -/
def runAll (e : Env) (ops : List Op) (r : Reg) : Reg := ops.foldl (fun r op => (op.run e r).2) r

theorem runAll_kept (e : Env) (key : Bytes) : ∀ (ops : List Op) (r : Reg) (p : Party), r key = some p → (∀ op ∈ ops, op.keeps key) →
    ∃ q, runAll e ops r key = some q ∧ Kept p q
  | [], _, p, h, _ => ⟨p, h, .rfl⟩
  | op :: t, r, p, h, hk => by
    obtain ⟨q, hq, k1⟩ := run_kept e op r key p h (hk op (by simp))
    obtain ⟨q', hq', k2⟩ := runAll_kept e key t _ q hq (fun o ho => hk o (by simp [ho]))
    exact ⟨q', hq', k1.trans k2⟩

/-- A successful round 4 returned the encoding of a record with the party's chain codes. -/
theorem r4Exec_codes {e : Env} {p : Party} {out : Bytes} (h : (r4Exec e p).1 = .ok out) :
    ∃ sv, e.jsonEnc sv = some out ∧ sv.chainCodes = p.save.chainCodes ∧ (r4Exec e p).2.save = sv := by
  have hk := r4Exec_kept e p
  have : e.jsonEnc (r4Exec e p).2.save = some out := by
    unfold r4Exec at h ⊢
    simp only at h ⊢
    generalize forJ (r4Step e) _ _ = fr at h ⊢
    obtain ⟨res, q⟩ := fr
    cases res with
    | err er => cases h
    | panic => cases h
    | ok u =>
      simp only at h ⊢
      cases hpub : q.save.pubXj with
      | nil => rw [hpub] at h; cases h
      | cons o t =>
        rw [hpub] at h
        cases o with
        | none => cases h
        | some X0 =>
          simp only at h ⊢
          cases hs : sumPub e.c 1 X0 t with
          | err er => rw [hs] at h; cases h
          | panic => rw [hs] at h; cases h
          | ok s =>
            rw [hs] at h
            simp only at h ⊢
            split at h
            · next b hb => cases h; rw [hb]
            · cases h
  exact ⟨_, this, hk.1, rfl⟩

/-- C14: the codes of the last successful SaveChainCodes are the ones in the record that key generation returns, whatever
calls come between, successful or not, as long as the party is not created anew, removed or given other codes. -/
theorem C14_record_holds_last_codes (e : Env) (r r1 : Reg) (key codes out : Bytes) (ops : List Op)
    (h : SaveChainCodes r key codes = (.ok (), r1)) (hk : ∀ op ∈ ops, op.keeps key)
    (h4 : (KeygenRound4Exec e (runAll e ops r1) key).1 = .ok out) :
    ∃ sv : SaveData, e.jsonEnc sv = some out ∧ sv.chainCodes = (split 124 codes).map (parseBig 16) := by
  cases hr : r key with
  | none =>
    have := (congrArg Prod.fst h)
    simp [SaveChainCodes, withParty, hr] at this
  | some p =>
    rcases C14_effect r key codes p hr with ⟨l, hl, -, he⟩ | ⟨er, he⟩
    · rw [he] at h
      have h1 : r1 key = some { p with save := { p.save with chainCodes := l.map some } } := by
        rw [← (Prod.mk.inj h).2]; simp [Reg.set]
      obtain ⟨q, hq, kq⟩ := runAll_kept e key ops r1 _ h1 hk
      rw [KeygenRound4Exec, withParty, hq] at h4
      obtain ⟨sv, h5, h6, -⟩ := r4Exec_codes h4
      exact ⟨sv, h5, by rw [h6, kq.1, hl]⟩
    · rw [he] at h; cases h

/-- C14: without any successful SaveChainCodes since its creation, the party's record has no chain codes. -/
theorem C14_no_codes (e : Env) (r r1 : Reg) (key out : Bytes) (i n : Int) (ids : List Bytes) (root : Bytes) (ops : List Op)
    (h : NewLocalParty r key i n ids root = (.ok (), r1)) (hk : ∀ op ∈ ops, op.keeps key)
    (h4 : (KeygenRound4Exec e (runAll e ops r1) key).1 = .ok out) :
    ∃ sv : SaveData, e.jsonEnc sv = some out ∧ sv.chainCodes = [] := by
  have h1 : ∃ p, r1 key = some p ∧ p.save.chainCodes = [] := by
    unfold NewLocalParty at h
    repeat' (first | (split at h) | (simp only at h; split at h))
    all_goals first
      | (cases h; done)
      | (rw [← (Prod.mk.inj h).2]; refine ⟨_, if_pos rfl, ?_⟩; rfl)
  obtain ⟨p, hp, hc⟩ := h1
  obtain ⟨q, hq, kq⟩ := runAll_kept e key ops r1 p hp hk
  rw [KeygenRound4Exec, withParty, hq] at h4
  obtain ⟨sv, h5, h6, -⟩ := r4Exec_codes h4
  exact ⟨sv, h5, by rw [h6, kq.1, hc]⟩

/-- The hypotheses are met: after a successful call for two parties, any rounds may follow, among them refused ones. -/
example (r : Reg) (key : Bytes) (p : Party) (h : r key = some p) (hn : p.save.pubXj.length = 2) :
    (∃ r1, SaveChainCodes r key (ascii "1f|a0") = (.ok (), r1)) ∧
    (∀ op ∈ [Op.exec2 key, .acc .one key 7 [1], .exec3 key, .new [9, 9, 9] 0 0 [] []], [9, 9, 9] ≠ key → op.keeps key) := by
  refine ⟨⟨_, Prod.ext ((C14_success_iff r key (ascii "1f|a0") p h).mpr ⟨by rw [hn]; decide +kernel, ?_⟩) rfl⟩, ?_⟩
  · intro s hs
    have e : split 124 (ascii "1f|a0") = [ascii "1f", ascii "a0"] := by decide +kernel
    rw [e] at hs
    simp only [List.mem_cons, List.not_mem_nil, or_false] at hs
    rcases hs with rfl | rfl
    · exact ⟨31, by decide +kernel⟩
    · exact ⟨160, by decide +kernel⟩
  · intro op ho hne
    simp only [List.mem_cons, List.not_mem_nil, or_false] at ho
    rcases ho with rfl | rfl | rfl | rfl
    all_goals first | trivial | exact hne

end Tss.Keygen
