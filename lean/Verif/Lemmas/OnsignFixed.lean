import Verif.Lemmas.OnsignInv
/-! What no call changes after creation: index, ids, message, private share, public shares. -/
namespace Tss.Onsign
open Tss Text Wire RangeProofs
open _root_.Tss.Keygen (forJ forJ_inv)

/-- `q` has the same identity as `p`. -/
def Same (p q : Party) : Prop :=
  q.index = p.index ∧ q.ids = p.ids ∧ q.m = p.m ∧ q.keys.privXi = p.keys.privXi ∧ q.keys.pubXj = p.keys.pubXj

theorem Same.rfl {p : Party} : Same p p := ⟨.refl _, .refl _, .refl _, .refl _, .refl _⟩

theorem Same.trans {p q s : Party} (h : Same p q) (g : Same q s) : Same p s := by
  obtain ⟨a1, a2, a3, a4, a5⟩ := h
  obtain ⟨b1, b2, b3, b4, b5⟩ := g
  exact ⟨b1.trans a1, b2.trans a2, b3.trans a3, b4.trans a4, b5.trans a5⟩

theorem r1Step_same (e : Env) (rnd : Rand1) (n K : Int) (p : Party) (j : Nat) : Same p (r1Step e rnd n K p j).2 := by
  unfold r1Step
  split
  · exact .rfl
  · split <;> exact ⟨.refl _, .refl _, .refl _, .refl _, .refl _⟩

theorem forJ_same {ε : Type} {step : Party → Nat → Res ε Unit × Party} (h : ∀ p j, Same p (step p j).2) (l : List Nat) (p : Party) :
    Same p (forJ step l p).2 := forJ_inv (fun q => Same p q) (fun s j hs => hs.trans (h s j)) l p .rfl

theorem r1Exec_same (e : Env) (rnd : Rand1) (p : Party) : Same p (r1Exec e rnd p).2 := by
  have h1 : ∀ n K q, Same q (r1Proofs e rnd n K q).2 := by
    intro n K q
    have h3 := forJ_same (r1Step_same e rnd n K) (List.range q.ids.length) q
    unfold r1Proofs
    split <;> next heq => rw [heq] at h3; exact h3
  have h2 : ∀ q, Same q (r1Encrypt e rnd q).2 := by
    intro q
    unfold r1Encrypt
    split
    · exact .rfl
    · split
      · exact .rfl
      · split
        · exact .rfl
        · exact Same.trans ⟨.refl _, .refl _, .refl _, .refl _, .refl _⟩ (h1 _ _ _)
  have h3 : ∀ q, Same q (r1Body e rnd q).2 := by
    intro q
    unfold r1Body
    split
    · next X0 t hpub =>
      cases hs : sumPub 1 X0 t with
      | err er => exact .rfl
      | panic => exact .rfl
      | ok s => exact Same.trans ⟨.refl _, .refl _, .refl _, .refl _, .refl _⟩ (h2 _)
    · exact .rfl
  exact Same.trans ⟨.refl _, .refl _, .refl _, .refl _, .refl _⟩ (h3 _)

theorem r2Verify_same (e : Env) (p : Party) (j : Nat) : Same p (r2Verify e p j).2 := by
  have hk : ∀ kc, Same p { p with kc := kc } := fun _ => ⟨.refl _, .refl _, .refl _, .refl _, .refl _⟩
  unfold r2Verify
  split
  · exact .rfl
  · split
    · exact .rfl
    · simp only
      split
      · exact hk _
      · split
        · exact hk _
        · split
          · split <;> exact hk _
          · exact hk _
      · exact hk _
    · exact .rfl

theorem r2Prove_same (e : Env) (draws : Nat → Draws) (k rho K n : Int) (Ri G : ECPoint) (p : Party) (j : Nat) :
    Same p (r2Prove e draws k rho K n Ri G p j).2 := by
  unfold r2Prove
  generalize Ed.curve = curve
  split
  · exact .rfl
  · split
    · exact .rfl
    · exact .rfl
    · split
      · exact .rfl
      · exact .rfl
      · exact ⟨.refl _, .refl _, .refl _, .refl _, .refl _⟩

theorem r2Exec_same (e : Env) (draws : Nat → Draws) (p : Party) : Same p (r2Exec e draws p).2 := by
  have h0 : Same p (resetOK { p with number := 2 }) := ⟨.refl _, .refl _, .refl _, .refl _, .refl _⟩
  unfold r2Exec
  simp only
  generalize resetOK { p with number := 2 } = q at h0 ⊢
  have h1 := h0.trans (forJ_same (r2Verify_same e) (List.range q.m11.length) q)
  have hP := fun k rho K n Ri G l s => forJ_same (r2Prove_same e draws k rho K n Ri G) l s
  generalize Ed.curve = curve
  split
  · next heq => rw [heq] at h1; exact h1
  · next heq => rw [heq] at h1; exact h1
  · next heq =>
    rw [heq] at h1
    split
    · exact h1
    · split
      · exact h1
      · split
        · exact h1.trans (hP _ _ _ _ _ _ _ _)
        · exact h1

theorem r3Exec_same (e : Env) (zs : Nat → Int) (p : Party) : Same p (r3Exec e zs p).2 := by
  rcases r3Exec_shape e zs p with h1 | ⟨E, A, G, -, -, -, w, si, -, -, h1⟩ <;> rw [h1] <;>
    exact ⟨.refl _, .refl _, .refl _, .refl _, .refl _⟩

theorem finalExec_same (e : Env) (p : Party) : Same p (finalExec e p).2 := by
  obtain ⟨ok, data, h⟩ := finalExec_const e p
  rw [h]; exact ⟨.refl _, .refl _, .refl _, .refl _, .refl _⟩

theorem r1Accept_same (frm : Int) (msg : Bytes) (p : Party) : Same p (r1Accept frm msg p).2 := by
  unfold r1Accept
  split
  · exact .rfl
  · split
    · exact .rfl
    · split <;> exact ⟨.refl _, .refl _, .refl _, .refl _, .refl _⟩
    · split <;> exact ⟨.refl _, .refl _, .refl _, .refl _, .refl _⟩
    · exact .rfl

theorem accept_same (kind : Kind) (wrong : Err) (slots : Party → List Bytes) (put : Party → List Bytes → Party)
    (hput : ∀ p l, Same p (put p l)) (frm : Int) (msg : Bytes) (p : Party) :
    Same p (accept kind wrong slots put frm msg p).2 := by
  unfold accept
  split
  · exact .rfl
  · split
    · simp only
      split
      · exact hput _ _
      · split <;> exact hput _ _
    · exact .rfl

theorem withParty_same {α : Type} (nf : Err) {r : Reg} {key : Bytes} {p : Party} (f : Party → Res Err α × Party)
    (hk : r key = some p) (hf : Same p (f p).2) : ∃ q, (withParty nf r key f).2 key = some q ∧ Same p q := by
  rw [withParty_some nf f hk]
  exact ⟨_, set_same _ _ _, hf⟩

/-- The calls that create or remove a party. -/
def Op.isLifecycle : Op → Bool
  | .new _ _ => true
  | .remove _ => true
  | _ => false

/-- A call other than creation and removal keeps the identity of the party under its key. -/
theorem run_same (e : Env) (op : Op) (r : Reg) (p : Party) (hk : r op.key = some p) (hl : op.isLifecycle = false) :
    ∃ q, (op.run e r).2 op.key = some q ∧ Same p q := by
  cases op with
  | new key a => exact nomatch hl
  | remove key => exact nomatch hl
  | exec1 key rnd => exact withParty_same _ _ hk (r1Exec_same e rnd p)
  | exec2 key d => exact withParty_same _ _ hk (r2Exec_same e d p)
  | exec3 key z => exact withParty_same _ _ hk (r3Exec_same e z p)
  | final key => exact withParty_same _ _ hk (finalExec_same e p)
  | get1 key t => exact withParty_same _ _ hk .rfl
  | get2 key t => exact withParty_same _ _ hk .rfl
  | fin1 key => exact withParty_same _ _ hk .rfl
  | fin2 key => exact withParty_same _ _ hk .rfl
  | fin3 key => exact withParty_same _ _ hk .rfl
  | acc1 key f m => exact withParty_same _ _ hk (r1Accept_same f m p)
  | acc2 key f m =>
    refine withParty_same _ _ hk (accept_same _ _ _ _ ?_ f m p)
    exact fun _ _ => ⟨.refl _, .refl _, .refl _, .refl _, .refl _⟩
  | acc3 key f m =>
    refine withParty_same _ _ hk (accept_same _ _ _ _ ?_ f m p)
    exact fun _ _ => ⟨.refl _, .refl _, .refl _, .refl _, .refl _⟩

/-- Run a history of signing calls. -/
def runOps (e : Env) : List Op → Reg → Reg
  | [], r => r
  | op :: t, r => runOps e t (op.run e r).2

/-- Along a history that neither creates nor removes `key`, the party keeps its identity. -/
theorem runOps_same (e : Env) (key : Bytes) : ∀ (ops : List Op) (r : Reg) (p : Party), r key = some p →
    (∀ op ∈ ops, op.key = key → op.isLifecycle = false) → ∃ q, runOps e ops r key = some q ∧ Same p q
  | [], r, p, hk, _ => ⟨p, hk, .rfl⟩
  | op :: t, r, p, hk, h => by
    have hstep : ∃ q, (op.run e r).2 key = some q ∧ Same p q := by
      by_cases hop : op.key = key
      · subst hop; exact run_same e op r p hk (h op (by simp) rfl)
      · exact ⟨p, by rw [run_other e op r key (fun h => hop h.symm)]; exact hk, .rfl⟩
    obtain ⟨q, h1, h2⟩ := hstep
    obtain ⟨s, h3, h4⟩ := runOps_same e key t _ q h1 (fun o ho => h o (by simp [ho]))
    exact ⟨s, h3, h2.trans h4⟩

theorem reach_runOps {e : Env} : ∀ (ops : List Op) {r : Reg}, Reach e r → Reach e (runOps e ops r)
  | [], _, h => h
  | op :: t, _, h => reach_runOps t (h.step op)

end Tss.Onsign
