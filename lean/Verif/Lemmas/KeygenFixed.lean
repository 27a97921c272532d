import Verif.Model.KeygenOps
import Verif.Lemmas.Keygen
/-! What no round of key generation changes: index, party ids and chain codes. -/
namespace Tss.Keygen
open Tss Text Wire

/-- `q` has the same place and the same chain codes as `p`. -/
def Kept (p q : Party) : Prop := q.save.chainCodes = p.save.chainCodes ∧ q.ids = p.ids ∧ q.index = p.index

theorem Kept.rfl {p : Party} : Kept p p := ⟨.refl _, .refl _, .refl _⟩

theorem Kept.trans {p q s : Party} (h : Kept p q) (g : Kept q s) : Kept p s :=
  ⟨g.1.trans h.1, g.2.1.trans h.2.1, g.2.2.trans h.2.2⟩

theorem forJ_kept {ε : Type} {step : Party → Nat → Res ε Unit × Party} (h : ∀ p j, Kept p (step p j).2) (l : List Nat) (p : Party) :
    Kept p (forJ step l p).2 := forJ_inv (fun q => Kept p q) (fun s j hs => hs.trans (h s j)) l p .rfl

theorem r1Exec_kept (e : Env) (rnd : Rand1) (p : Party) : Kept p (r1Exec e rnd p).2 := by
  unfold r1Exec
  simp only
  split <;> exact ⟨.refl _, .refl _, .refl _⟩

theorem r2Step_kept (p : Party) (j : Nat) : Kept p (r2Step p j).2 := by
  unfold r2Step
  split <;> exact ⟨.refl _, .refl _, .refl _⟩

theorem r2Exec_kept (p : Party) : Kept p (r2Exec p).2 := by
  have h0 : Kept p (resetOK { p with number := 2 }) := ⟨.refl _, .refl _, .refl _⟩
  unfold r2Exec
  simp only
  generalize resetOK { p with number := 2 } = q at h0 ⊢
  have h1 := h0.trans (forJ_kept r2Step_kept (List.range q.m1.length) q)
  split
  · next heq =>
    rw [heq] at h1
    split
    · exact h1.trans ⟨.refl _, .refl _, .refl _⟩
    · exact h1
  · next heq => rw [heq] at h1; exact h1
  · next heq => rw [heq] at h1; exact h1

theorem r3Step_kept (e : Env) (p : Party) (j : Nat) : Kept p (r3Step e p j).2 := by
  unfold r3Step
  split
  · exact .rfl
  · split
    · exact .rfl
    · split
      · exact ⟨.refl _, .refl _, .refl _⟩
      · simp only
        split
        · exact ⟨.refl _, .refl _, .refl _⟩
        · split
          · exact ⟨.refl _, .refl _, .refl _⟩
          · split <;> exact ⟨.refl _, .refl _, .refl _⟩
    · exact .rfl

theorem r3Exec_kept (e : Env) (p : Party) : Kept p (r3Exec e p).2 := by
  have h0 : Kept p (resetOK { p with number := 3 }) := ⟨.refl _, .refl _, .refl _⟩
  unfold r3Exec
  simp only
  generalize resetOK { p with number := 3 } = q at h0 ⊢
  have h1 := h0.trans (forJ_kept (r3Step_kept e) (List.range q.m2.length) q)
  split
  · next heq =>
    rw [heq] at h1
    split
    · exact h1.trans ⟨.refl _, .refl _, .refl _⟩
    · exact h1
  · next heq => rw [heq] at h1; exact h1
  · next heq => rw [heq] at h1; exact h1

theorem r4Step_kept (e : Env) (p : Party) (j : Nat) : Kept p (r4Step e p j).2 := by
  unfold r4Step
  split
  · exact .rfl
  · split
    · exact .rfl
    · split
      · simp only
        split
        · split <;> exact .rfl
        · exact .rfl
      · exact .rfl

theorem r4Exec_kept (e : Env) (p : Party) : Kept p (r4Exec e p).2 := by
  have h0 : Kept p (resetOK { p with number := 4 }) := ⟨.refl _, .refl _, .refl _⟩
  unfold r4Exec
  simp only
  generalize resetOK { p with number := 4 } = q at h0 ⊢
  have h1 := h0.trans (forJ_kept (r4Step_kept e) (List.range q.m3.length) q)
  split
  · next heq =>
    rw [heq] at h1
    split
    · split
      · split <;> exact h1.trans ⟨.refl _, .refl _, .refl _⟩
      · exact h1
      · exact h1
    · exact h1
  · next heq => rw [heq] at h1; exact h1
  · next heq => rw [heq] at h1; exact h1

theorem accept_kept (rd : Round) (r : Reg) (key : Bytes) (frm : Int) (msg : Bytes) (p : Party) (h : r key = some p) :
    ∃ q, (rd.accept r key frm msg).2 key = some q ∧ Kept p q := by
  cases rd <;> (
    simp only [Round.accept, KeygenRound1Accept, KeygenRound2Accept, KeygenRound3Accept, withParty, h, Reg.set, if_pos]
    refine ⟨_, _root_.rfl, ?_⟩
    unfold accept
    split
    · exact .rfl
    · simp only
      split
      · split
        · exact ⟨.refl _, .refl _, .refl _⟩
        · split <;> exact ⟨.refl _, .refl _, .refl _⟩
      · exact .rfl)

theorem with_kept {α : Type} (r : Reg) (key : Bytes) (f : Party → Res Err α × Party) (p : Party) (h : r key = some p)
    (hf : Kept p (f p).2) : ∃ q, (withParty r key f).2 key = some q ∧ Kept p q := by
  simp only [withParty, h, Reg.set, if_pos]
  exact ⟨_, _root_.rfl, hf⟩

/-- A call that neither creates, removes nor hands chain codes to the party under `key`. -/
def Op.keeps (key : Bytes) : Op → Prop
  | .new k .. => k ≠ key
  | .saveChain k _ => k ≠ key
  | .remove k => k ≠ key
  | _ => True

theorem run_elsewhere (e : Env) (op : Op) (r : Reg) (key : Bytes) (h : op.key ≠ key) : (op.run e r).2 key = r key := by
  have w : ∀ {α : Type} (k : Bytes) (f : Party → Res Err α × Party), k ≠ key → (withParty r k f).2 key = r key := by
    intro α k f hk
    unfold withParty
    split
    · rfl
    · simp only [Reg.set, if_neg (Ne.symm hk)]
  cases op with
  | new k i n ids root =>
    simp only [Op.run, NewLocalParty]
    have hk : k ≠ key := h
    repeat' split
    all_goals first | rfl | simp only [Reg.set, if_neg (Ne.symm hk)]
  | remove k =>
    simp only [Op.run, RemoveParty]
    have hk : k ≠ key := h
    split
    · rfl
    · simp only [Reg.set, if_neg (Ne.symm hk)]
  | saveChain k c => exact w _ _ h
  | exec1 k rnd => exact w _ _ h
  | exec2 k => exact w _ _ h
  | exec3 k => exact w _ _ h
  | exec4 k => exact w _ _ h
  | acc rd k f m => cases rd <;> exact w _ _ h
  | fin rd k => cases rd <;> exact w _ _ h

theorem run_kept (e : Env) (op : Op) (r : Reg) (key : Bytes) (p : Party) (h : r key = some p) (hk : op.keeps key) :
    ∃ q, (op.run e r).2 key = some q ∧ Kept p q := by
  by_cases hop : op.key = key
  · cases op with
    | new k i n ids root => exact absurd hop hk
    | saveChain k c => exact absurd hop hk
    | remove k => exact absurd hop hk
    | exec1 k rnd => cases hop; exact with_kept r _ _ p h (r1Exec_kept e rnd p)
    | exec2 k => cases hop; exact with_kept r _ _ p h (r2Exec_kept p)
    | exec3 k => cases hop; exact with_kept r _ _ p h (r3Exec_kept e p)
    | exec4 k => cases hop; exact with_kept r _ _ p h (r4Exec_kept e p)
    | acc rd k f m => cases hop; exact accept_kept rd r _ f m p h
    | fin rd k => cases hop; cases rd <;> exact with_kept r _ _ p h .rfl
  · exact ⟨p, (run_elsewhere e op r key hop).trans h, .rfl⟩

end Tss.Keygen
