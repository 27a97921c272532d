import Verif.Lemmas.Onsign
import Verif.Model.OnsignOps
import Verif.Props.Keygen
/-
Both packages together: isolation of keys (C10), unknown keys (C11), removal (C12).
-/
namespace Tss.Keygen
open Tss

/-- Every exported key-generation call leaves the entries of other keys alone. -/
theorem run_other (e : Env) (op : Op) (r : Reg) (k : Bytes) (h : k ≠ op.key) : (op.run e r).2 k = r k := by
  cases op with
  | new key i n ids root =>
    show (NewLocalParty r key i n ids root).2 k = r k
    unfold NewLocalParty
    (try simp only)
    repeat' (split <;> (try simp only))
    all_goals first | rfl | exact set_other r _ h
  | remove key =>
    show (RemoveParty r key).2 k = r k
    unfold RemoveParty
    split
    · rfl
    · exact set_other r _ h
  | acc rd key f m => cases rd <;> exact withParty_other r _ h
  | fin rd key => cases rd <;> exact withParty_other r _ h
  | _ => exact withParty_other r _ h

theorem withParty_local {α : Type} {r r' : Reg} {key : Bytes} (f : Party → Res Err α × Party) (h : r key = r' key) :
    (withParty r key f).1 = (withParty r' key f).1 ∧ (withParty r key f).2 key = (withParty r' key f).2 key := by
  unfold withParty
  rw [h]
  cases hk : r' key with
  | none => exact ⟨rfl, by simp [h, hk]⟩
  | some p => exact ⟨rfl, by simp [Reg.set]⟩

/-- What a call returns and leaves under its key depends only on what was stored under its key. -/
theorem run_local (e : Env) (op : Op) (r r' : Reg) (h : r op.key = r' op.key) :
    (op.run e r).1 = (op.run e r').1 ∧ (op.run e r).2 op.key = (op.run e r').2 op.key := by
  have lift : ∀ {k : Bytes} (f : Party → Res Err Bytes × Party), r k = r' k →
      Out.res (withParty r k f).1 = Out.res (withParty r' k f).1 ∧ (withParty r k f).2 k = (withParty r' k f).2 k :=
    fun f hk => ⟨by rw [(withParty_local f hk).1], (withParty_local f hk).2⟩
  have liftU : ∀ {k : Bytes} (f : Party → Res Err Unit × Party), r k = r' k →
      Out.res (noData (withParty r k f).1) = Out.res (noData (withParty r' k f).1) ∧
        (withParty r k f).2 k = (withParty r' k f).2 k :=
    fun f hk => ⟨by rw [(withParty_local f hk).1], (withParty_local f hk).2⟩
  cases op with
  | new key i n ids root =>
    have hh : r key = r' key := h
    show Out.res (noData (NewLocalParty r key i n ids root).1) = Out.res (noData (NewLocalParty r' key i n ids root).1) ∧
      (NewLocalParty r key i n ids root).2 key = (NewLocalParty r' key i n ids root).2 key
    unfold NewLocalParty
    (try simp only)
    repeat' (split <;> (try simp only))
    all_goals first | exact ⟨trivial, hh⟩ | simp [Reg.set]
  | remove key =>
    have hh : r key = r' key := h
    show Out.bool (RemoveParty r key).1 = Out.bool (RemoveParty r' key).1 ∧ (RemoveParty r key).2 key = (RemoveParty r' key).2 key
    unfold RemoveParty
    rw [hh]
    cases hk : r' key with
    | none => exact ⟨rfl, by simp [hh, hk]⟩
    | some p => exact ⟨rfl, by simp [Reg.set]⟩
  | exec1 key rnd => exact lift _ h
  | exec2 key => exact lift _ h
  | exec3 key => exact lift _ h
  | exec4 key => exact lift _ h
  | saveChain key c => exact liftU _ h
  | acc rd key f m => cases rd <;> exact liftU _ h
  | fin rd key => cases rd <;> exact liftU _ h

end Tss.Keygen

namespace Tss.Onsign
open Tss

theorem withParty_local {α : Type} (nf : Err) {r r' : Reg} {key : Bytes} (f : Party → Res Err α × Party) (h : r key = r' key) :
    (withParty nf r key f).1 = (withParty nf r' key f).1 ∧ (withParty nf r key f).2 key = (withParty nf r' key f).2 key := by
  unfold withParty
  rw [h]
  cases hk : r' key with
  | none => exact ⟨rfl, by simp [h, hk]⟩
  | some p => exact ⟨rfl, by simp [Reg.set]⟩

/-- What a call returns and leaves under its key depends only on what was stored under its key. -/
theorem run_local (e : Env) (op : Op) (r r' : Reg) (h : r op.key = r' op.key) :
    (op.run e r).1 = (op.run e r').1 ∧ (op.run e r).2 op.key = (op.run e r').2 op.key := by
  have lift : ∀ {k : Bytes} (nf : Err) (f : Party → Res Err Bytes × Party), r k = r' k →
      Out.res (withParty nf r k f).1 = Out.res (withParty nf r' k f).1 ∧ (withParty nf r k f).2 k = (withParty nf r' k f).2 k :=
    fun nf f hk => ⟨by rw [(withParty_local nf f hk).1], (withParty_local nf f hk).2⟩
  have liftU : ∀ {k : Bytes} (nf : Err) (f : Party → Res Err Unit × Party), r k = r' k →
      Out.res (noData (withParty nf r k f).1) = Out.res (noData (withParty nf r' k f).1) ∧
        (withParty nf r k f).2 k = (withParty nf r' k f).2 k :=
    fun nf f hk => ⟨by rw [(withParty_local nf f hk).1], (withParty_local nf f hk).2⟩
  cases op with
  | new key a =>
    have hh : r key = r' key := h
    show Out.res (noData (NewLocalParty e r key a).1) = Out.res (noData (NewLocalParty e r' key a).1) ∧
      (NewLocalParty e r key a).2 key = (NewLocalParty e r' key a).2 key
    unfold NewLocalParty
    (try simp only)
    repeat' (split <;> (try simp only))
    all_goals first | exact ⟨trivial, hh⟩ | simp [Reg.set]
  | remove key =>
    have hh : r key = r' key := h
    show Out.bool (RemoveSignParty r key).1 = Out.bool (RemoveSignParty r' key).1 ∧
      (RemoveSignParty r key).2 key = (RemoveSignParty r' key).2 key
    unfold RemoveSignParty
    rw [hh]
    cases hk : r' key with
    | none => exact ⟨rfl, by simp [hh, hk]⟩
    | some p => exact ⟨rfl, by simp [Reg.set]⟩
  | exec1 key rnd => exact lift _ _ h
  | get1 key t => exact lift _ _ h
  | get2 key t => exact lift _ _ h
  | exec3 key z => exact lift _ _ h
  | final key => exact lift _ _ h
  | exec2 key d => exact liftU _ _ h
  | acc1 key f m => exact liftU _ _ h
  | acc2 key f m => exact liftU _ _ h
  | acc3 key f m => exact liftU _ _ h
  | fin1 key => exact liftU _ _ h
  | fin2 key => exact liftU _ _ h
  | fin3 key => exact liftU _ _ h

end Tss.Onsign

namespace Tss.World
open Tss Text

/-! ### C10 -/

/-- The package a call belongs to: `true` for key generation. -/
def Op.isKg : Op → Bool
  | .kg _ => true
  | .sg _ => false

/-- What is stored under `key` in the registry of a package. -/
def cell (w : World) (kg : Bool) (key : Bytes) : Option Keygen.Party ⊕ Option Onsign.Party :=
  if kg then .inl (w.kg key) else .inr (w.sg key)

/-- C10. A key-generation call leaves the signing registry and every other key alone, whatever it returns (also when it
panics). -/
theorem C10_keygen_call_is_local (e : Env) (op : Keygen.Op) (w : World) :
    ((Op.kg op).run e w).2.sg = w.sg ∧ ∀ k, k ≠ op.key → ((Op.kg op).run e w).2.kg k = w.kg k :=
  ⟨rfl, fun k h => Keygen.run_other e.kg op w.kg k h⟩

/-- C10. A signing call leaves the key-generation registry and every other key alone. -/
theorem C10_signing_call_is_local (e : Env) (op : Onsign.Op) (w : World) :
    ((Op.sg op).run e w).2.kg = w.kg ∧ ∀ k, k ≠ op.key → ((Op.sg op).run e w).2.sg k = w.sg k :=
  ⟨rfl, fun k h => Onsign.run_other e.sg op w.sg k h⟩

theorem cell_other (e : Env) (op : Op) (w : World) (b : Bool) (k : Bytes) (h : ¬ (op.isKg = b ∧ op.key = k)) :
    cell (op.run e w).2 b k = cell w b k := by
  cases op with
  | kg op =>
    cases b with
    | false => rfl
    | true =>
      have hk : k ≠ op.key := fun hk => h ⟨rfl, hk.symm⟩
      show Sum.inl _ = Sum.inl _
      rw [(C10_keygen_call_is_local e op w).2 k hk]
  | sg op =>
    cases b with
    | true => rfl
    | false =>
      have hk : k ≠ op.key := fun hk => h ⟨rfl, hk.symm⟩
      show Sum.inr _ = Sum.inr _
      rw [(C10_signing_call_is_local e op w).2 k hk]

theorem cell_own (e : Env) (op : Op) (w w' : World) (h : cell w op.isKg op.key = cell w' op.isKg op.key) :
    (op.run e w).1 = (op.run e w').1 ∧ cell (op.run e w).2 op.isKg op.key = cell (op.run e w').2 op.isKg op.key := by
  cases op with
  | kg op =>
    have hh : w.kg op.key = w'.kg op.key := by injection h
    obtain ⟨h1, h2⟩ := Keygen.run_local e.kg op w.kg w'.kg hh
    exact ⟨congrArg Out.kg h1, congrArg Sum.inl h2⟩
  | sg op =>
    have hh : w.sg op.key = w'.sg op.key := by injection h
    obtain ⟨h1, h2⟩ := Onsign.run_local e.sg op w.sg w'.sg hh
    exact ⟨congrArg Out.sg h1, congrArg Sum.inr h2⟩

/-- The answers, in order, to the calls with key `k` of package `b` in a history. -/
def answers (e : Env) (b : Bool) (k : Bytes) : List Op → World → List Out
  | [], _ => []
  | op :: t, w =>
    if op.isKg = b ∧ op.key = k then (op.run e w).1 :: answers e b k t (op.run e w).2 else answers e b k t (op.run e w).2

/-- C10. Over whole histories: a party sees nothing of the calls made for other keys or other packages. The answers to the
calls for key `k` in a mixed history, and the party left at the end, are those of the history with all other calls left out. -/
theorem C10_noninterference (e : Env) (b : Bool) (k : Bytes) (ops : List Op) (w w' : World) (h : cell w b k = cell w' b k) :
    answers e b k ops w = answers e b k (ops.filter fun op => op.isKg = b ∧ op.key = k) w' ∧
    cell (runAll e ops w) b k = cell (runAll e (ops.filter fun op => op.isKg = b ∧ op.key = k) w') b k := by
  induction ops generalizing w w' with
  | nil => exact ⟨rfl, h⟩
  | cons op t ih =>
    by_cases ho : op.isKg = b ∧ op.key = k
    · obtain ⟨h1, h2⟩ := cell_own e op w w' (by rw [ho.1, ho.2]; exact h)
      rw [ho.1, ho.2] at h2
      obtain ⟨i1, i2⟩ := ih _ _ h2
      rw [List.filter_cons_of_pos (by simpa using ho)]
      simp only [answers, if_pos ho, runAll]
      exact ⟨by rw [h1, i1], i2⟩
    · rw [List.filter_cons_of_neg (by simpa using ho)]
      simp only [answers, if_neg ho, runAll]
      exact ih _ _ (by rw [cell_other e op w b k ho]; exact h)

/-! ### C11 -/

/-- A refusal: an error with a non-empty text (so neither Ok nor a crash), or `false` from a removal. -/
def spec.Refused : Out → Prop
  | .kg (.res (.err er)) => er.text ≠ []
  | .kg (.bool b) => b = false
  | .sg (.res (.err er)) => er.text ≠ []
  | .sg (.bool b) => b = false
  | _ => False

/-- The registry of package `b` has no party under key `k`. -/
def spec.Absent (w : World) (b : Bool) (k : Bytes) : Prop :=
  match b with
  | true => w.kg k = none
  | false => w.sg k = none

/-- The call creates a party. -/
def Op.isNew : Op → Bool
  | .kg (.new ..) => true
  | .sg (.new ..) => true
  | _ => false

theorem ascii_append_ne (s : String) (b : Bytes) (h : ascii s ≠ []) : ascii s ++ b ≠ [] := by
  intro h0; exact h (List.append_eq_nil_iff.mp h0).1

/-- C11. A call (other than a creation) with the key of no party of its package is refused with an error text; nothing
crashes and nothing changes. -/
theorem C11_unknown_key (e : Env) (op : Op) (w : World) (hn : op.isNew = false)
    (hk : spec.Absent w op.isKg op.key) :
    spec.Refused (op.run e w).1 ∧ (op.run e w).2 = w := by
  have hkg : ∀ k, (Keygen.Err.partyNotFound k).text ≠ [] := fun k => ascii_append_ne _ k (by decide +kernel)
  have hsg : ∀ k, (Onsign.Err.partyNotFound k).text ≠ [] := fun k => ascii_append_ne _ k (by decide +kernel)
  have hsg2 : Onsign.Err.round2FinishNotFound.text ≠ [] := by
    show ascii _ ≠ []; decide +kernel
  cases op with
  | kg op =>
    have L : ∀ {k : Bytes} (f : Keygen.Party → Res Keygen.Err Bytes × Keygen.Party), w.kg k = none →
        spec.Refused (.kg (.res (Keygen.withParty w.kg k f).1)) ∧ ({ w with kg := (Keygen.withParty w.kg k f).2 } : World) = w := by
      intro k f h; rw [Keygen.withParty_none f h]; exact ⟨hkg k, rfl⟩
    have U : ∀ {k : Bytes} (f : Keygen.Party → Res Keygen.Err Unit × Keygen.Party), w.kg k = none →
        spec.Refused (.kg (.res (Keygen.noData (Keygen.withParty w.kg k f).1))) ∧
          ({ w with kg := (Keygen.withParty w.kg k f).2 } : World) = w := by
      intro k f h; rw [Keygen.withParty_none f h]; exact ⟨hkg k, rfl⟩
    cases op with
    | new => exact nomatch hn
    | remove key =>
      have hh : w.kg key = none := hk
      show spec.Refused (.kg (.bool (Keygen.RemoveParty w.kg key).1)) ∧ ({ w with kg := (Keygen.RemoveParty w.kg key).2 } : World) = w
      unfold Keygen.RemoveParty; rw [hh]; exact ⟨rfl, rfl⟩
    | saveChain => exact U _ hk
    | acc rd => cases rd <;> exact U _ hk
    | fin rd => cases rd <;> exact U _ hk
    | exec1 => exact L _ hk
    | exec2 => exact L _ hk
    | exec3 => exact L _ hk
    | exec4 => exact L _ hk
  | sg op =>
    have L : ∀ {k : Bytes} (nf : Onsign.Err) (_ : nf.text ≠ []) (f : Onsign.Party → Res Onsign.Err Bytes × Onsign.Party), w.sg k = none →
        spec.Refused (.sg (.res (Onsign.withParty nf w.sg k f).1)) ∧ ({ w with sg := (Onsign.withParty nf w.sg k f).2 } : World) = w := by
      intro k nf hnf f h; rw [Onsign.withParty_none nf f h]; exact ⟨hnf, rfl⟩
    have U : ∀ {k : Bytes} (nf : Onsign.Err) (_ : nf.text ≠ []) (f : Onsign.Party → Res Onsign.Err Unit × Onsign.Party), w.sg k = none →
        spec.Refused (.sg (.res (Onsign.noData (Onsign.withParty nf w.sg k f).1))) ∧
          ({ w with sg := (Onsign.withParty nf w.sg k f).2 } : World) = w := by
      intro k nf hnf f h; rw [Onsign.withParty_none nf f h]; exact ⟨hnf, rfl⟩
    cases op with
    | new => exact nomatch hn
    | remove key =>
      have hh : w.sg key = none := hk
      show spec.Refused (.sg (.bool (Onsign.RemoveSignParty w.sg key).1)) ∧ ({ w with sg := (Onsign.RemoveSignParty w.sg key).2 } : World) = w
      unfold Onsign.RemoveSignParty; rw [hh]; exact ⟨rfl, rfl⟩
    | fin2 => exact U _ hsg2 _ hk
    | acc1 => exact U _ (hsg _) _ hk
    | acc2 => exact U _ (hsg _) _ hk
    | acc3 => exact U _ (hsg _) _ hk
    | fin1 => exact U _ (hsg _) _ hk
    | fin3 => exact U _ (hsg _) _ hk
    | exec2 => exact U _ (hsg _) _ hk
    | exec1 => exact L _ (hsg _) _ hk
    | get1 => exact L _ (hsg _) _ hk
    | get2 => exact L _ (hsg _) _ hk
    | exec3 => exact L _ (hsg _) _ hk
    | final => exact L _ (hsg _) _ hk

/-- C11. The text: "party not found: <key>" from every call except the round-2 finish of signing, which answers
"not SignRound1Message2". -/
theorem C11_texts (e : Env) (w : World) (key : Bytes) (hg : w.kg key = none) (hs : w.sg key = none) :
    (∀ op : Keygen.Op, op.key = key → (Op.kg op).isNew = false → (∀ k, op ≠ .remove k) →
      (op.run e.kg w.kg).1 = .res (.err (.partyNotFound key))) ∧
    (∀ op : Onsign.Op, op.key = key → (Op.sg op).isNew = false → (∀ k, op ≠ .remove k) → op ≠ .fin2 key →
      (op.run e.sg w.sg).1 = .res (.err (.partyNotFound key))) ∧
    ((Onsign.Op.fin2 key).run e.sg w.sg).1 = .res (.err .round2FinishNotFound) ∧
    (Keygen.Err.partyNotFound key).text = ascii "party not found: " ++ key ∧
    (Onsign.Err.partyNotFound key).text = ascii "party not found: " ++ key := by
  refine ⟨?_, ?_, ?_, rfl, rfl⟩
  · intro op hk hn hr
    have L : ∀ (f : Keygen.Party → Res Keygen.Err Bytes × Keygen.Party),
        Keygen.Out.res (Keygen.withParty w.kg key f).1 = .res (.err (.partyNotFound key)) := by
      intro f; rw [Keygen.withParty_none f hg]
    have U : ∀ (f : Keygen.Party → Res Keygen.Err Unit × Keygen.Party),
        Keygen.Out.res (Keygen.noData (Keygen.withParty w.kg key f).1) = .res (.err (.partyNotFound key)) := by
      intro f; rw [Keygen.withParty_none f hg]; rfl
    cases op with
    | new => exact nomatch hn
    | remove k => exact absurd rfl (hr k)
    | saveChain => cases hk; exact U _
    | acc rd => cases hk; cases rd <;> exact U _
    | fin rd => cases hk; cases rd <;> exact U _
    | exec1 => cases hk; exact L _
    | exec2 => cases hk; exact L _
    | exec3 => cases hk; exact L _
    | exec4 => cases hk; exact L _
  · intro op hk hn hr h2
    have L : ∀ (f : Onsign.Party → Res Onsign.Err Bytes × Onsign.Party),
        Onsign.Out.res (Onsign.withParty (.partyNotFound key) w.sg key f).1 = .res (.err (.partyNotFound key)) := by
      intro f; rw [Onsign.withParty_none _ f hs]
    have U : ∀ (f : Onsign.Party → Res Onsign.Err Unit × Onsign.Party),
        Onsign.Out.res (Onsign.noData (Onsign.withParty (.partyNotFound key) w.sg key f).1) = .res (.err (.partyNotFound key)) := by
      intro f; rw [Onsign.withParty_none _ f hs]; rfl
    cases op with
    | new => exact nomatch hn
    | remove k => exact absurd rfl (hr k)
    | fin2 k => cases hk; exact absurd rfl h2
    | acc1 => cases hk; exact U _
    | acc2 => cases hk; exact U _
    | acc3 => cases hk; exact U _
    | fin1 => cases hk; exact U _
    | fin3 => cases hk; exact U _
    | exec2 => cases hk; exact U _
    | exec1 => cases hk; exact L _
    | get1 => cases hk; exact L _
    | get2 => cases hk; exact L _
    | exec3 => cases hk; exact L _
    | final => cases hk; exact L _
  · show Onsign.Out.res (Onsign.noData (Onsign.withParty _ w.sg key _).1) = _
    rw [Onsign.withParty_none _ _ hs]; rfl

/-! ### C12 -/

/-- C12. Removal answers whether the party existed, and removes exactly it. -/
theorem C12_remove_exact (e : Env) (w : World) (key : Bytes) :
    (((Op.kg (.remove key)).run e w).1 = .kg (.bool (w.kg key).isSome) ∧
      ((Op.kg (.remove key)).run e w).2.kg key = none ∧ (∀ k, k ≠ key → ((Op.kg (.remove key)).run e w).2.kg k = w.kg k) ∧
      ((Op.kg (.remove key)).run e w).2.sg = w.sg) ∧
    (((Op.sg (.remove key)).run e w).1 = .sg (.bool (w.sg key).isSome) ∧
      ((Op.sg (.remove key)).run e w).2.sg key = none ∧ (∀ k, k ≠ key → ((Op.sg (.remove key)).run e w).2.sg k = w.sg k) ∧
      ((Op.sg (.remove key)).run e w).2.kg = w.kg) := by
  refine ⟨⟨?_, ?_, (C10_keygen_call_is_local e (.remove key) w).2, rfl⟩, ⟨?_, ?_, (C10_signing_call_is_local e (.remove key) w).2, rfl⟩⟩
  · show Out.kg (.bool (Keygen.RemoveParty w.kg key).1) = _
    unfold Keygen.RemoveParty; cases w.kg key <;> rfl
  · show (Keygen.RemoveParty w.kg key).2 key = none
    unfold Keygen.RemoveParty
    cases h : w.kg key with
    | none => exact h
    | some p => simp [Keygen.Reg.set]
  · show Out.sg (.bool (Onsign.RemoveSignParty w.sg key).1) = _
    unfold Onsign.RemoveSignParty; cases w.sg key <;> rfl
  · show (Onsign.RemoveSignParty w.sg key).2 key = none
    unfold Onsign.RemoveSignParty
    cases h : w.sg key with
    | none => exact h
    | some p => simp [Onsign.Reg.set]

/-- A call of package `b` with key `k`. -/
def Op.uses (op : Op) (b : Bool) (k : Bytes) : Prop := op.isKg = b ∧ op.key = k

theorem absent_step (e : Env) (op : Op) (w : World) (b : Bool) (k : Bytes)
    (h : spec.Absent w b k) (hn : op.uses b k → op.isNew = false) : spec.Absent (op.run e w).2 b k := by
  by_cases hu : op.uses b k
  · have h2 : (op.run e w).2 = w := (C11_unknown_key e op w (hn hu) (by rw [hu.1, hu.2]; exact h)).2
    rw [h2]; exact h
  · have := cell_other e op w b k hu
    cases b with
    | true =>
      have h2 : (op.run e w).2.kg k = w.kg k := by injection this
      show (op.run e w).2.kg k = none
      rw [h2]; exact h
    | false =>
      have h2 : (op.run e w).2.sg k = w.sg k := by injection this
      show (op.run e w).2.sg k = none
      rw [h2]; exact h

/-- C12. After a removal, along every later history that does not create the key again, every call with that key is
refused. -/
theorem C12_removed_stays_removed (e : Env) (w : World) (b : Bool) (key : Bytes) (ops : List Op)
    (hn : ∀ op ∈ ops, op.uses b key → op.isNew = false) :
    let w1 := ((if b then Op.kg (.remove key) else Op.sg (.remove key)).run e w).2
    (∀ o ∈ answers e b key ops w1, spec.Refused o) ∧
    spec.Absent (runAll e ops w1) b key := by
  intro w1
  have h0 : spec.Absent w1 b key := by
    cases b with
    | true => exact (C12_remove_exact e w key).1.2.1
    | false => exact (C12_remove_exact e w key).2.2.1
  clear_value w1
  induction ops generalizing w1 with
  | nil => exact ⟨by simp [answers], h0⟩
  | cons op t ih =>
    have h1 := absent_step e op w1 b key h0 (hn op (by simp))
    obtain ⟨i1, i2⟩ := ih (fun o ho => hn o (by simp [ho])) _ h1
    refine ⟨?_, i2⟩
    by_cases hu : op.isKg = b ∧ op.key = key
    · simp only [answers, if_pos hu]
      intro o ho
      rcases List.mem_cons.mp ho with rfl | ho
      · exact (C11_unknown_key e op w1 (hn op (by simp) hu) (by rw [hu.1, hu.2]; exact h0)).1
      · exact i1 o ho
    · simp only [answers, if_neg hu]; exact i1

/-- a world with one key-generation party "k": the party answers, an unknown key is refused, and after a removal the party
is refused too while a second key is untouched -/
example (e : Env) : let w : World := { kg := fun k => if k = ascii "k" ∨ k = ascii "l" then some Keygen.exParty else none, sg := fun _ => none }
    ((Op.kg (.fin .one (ascii "k"))).run e w).1 = .kg (.res (.err (.msgNull 1))) ∧
    ((Op.kg (.fin .one (ascii "x"))).run e w).1 = .kg (.res (.err (.partyNotFound (ascii "x")))) ∧
    ((Op.kg (.remove (ascii "k"))).run e w).1 = .kg (.bool true) ∧
    let w1 := ((Op.kg (.remove (ascii "k"))).run e w).2
    answers e true (ascii "k") [.kg (.fin .one (ascii "l")), .kg (.fin .one (ascii "k")), .sg (.fin2 (ascii "k")), .kg (.remove (ascii "k"))] w1 =
      [.kg (.res (.err (.partyNotFound (ascii "k")))), .kg (.bool false)] ∧
    answers e true (ascii "l") [.kg (.fin .one (ascii "k")), .kg (.fin .one (ascii "l"))] w1 = [.kg (.res (.err (.msgNull 1)))] := by
  exact ⟨rfl, rfl, rfl, rfl, rfl⟩

end Tss.World
