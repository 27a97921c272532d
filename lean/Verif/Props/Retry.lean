import Verif.Lemmas.OnsignRetry
import Verif.Lemmas.OnsignFixed
import Verif.Props.World
/-
C104 for signing: a round that failed can be tried again.
-/
namespace Tss.Onsign
open Tss Text Wire RangeProofs Retry

/-! ### Specification -/

/-- The rounds of a signing session. -/
inductive spec.Stage where
  | one | two | three | last
  deriving DecidableEq

/-- The round that a call executes, if any. -/
def spec.stage : Op → Option spec.Stage
  | .exec1 .. => some .one
  | .exec2 .. => some .two
  | .exec3 .. => some .three
  | .final .. => some .last
  | _ => none

/-- The call hands in, asks for or checks messages: the `MsgAccept`, `Get…Msg` and `Finish` functions. -/
def spec.isMsg : Op → Bool
  | .acc1 .. | .acc2 .. | .acc3 .. | .get1 .. | .get2 .. | .fin1 .. | .fin2 .. | .fin3 .. => true
  | _ => false

/-- The call executes that round. -/
def spec.executes (st : spec.Stage) (op : Op) : Bool := spec.stage op == some st

/-- The call did not return Ok. -/
def spec.Failed : Out → Prop
  | .res (.ok _) => False
  | .res (.err _) => True
  | .res .panic => True
  | .bool b => b = false

/-- While the calls are served from registry `r`, the session under `key` only sees message calls and tries of the
round `st` that do not succeed; other sessions see anything. -/
def spec.OnlyFailedTries (e : Env) (key : Bytes) (st : spec.Stage) : List Op → Reg → Prop
  | [], _ => True
  | op :: t, r =>
    (op.key = key → spec.isMsg op = true ∨ (spec.executes st op = true ∧ spec.Failed (op.run e r).1)) ∧
    spec.OnlyFailedTries e key st t (op.run e r).2

/-- The calls without the tries of round `st` of the session `key`. -/
def spec.withoutTries (key : Bytes) (st : spec.Stage) (ops : List Op) : List Op :=
  ops.filter fun op => !(op.key == key && spec.executes st op)

/-! ### Message calls -/

theorem accept_effect (kind : Kind) (wrong : Err) (slots : Party → List Bytes) (put : Party → List Bytes → Party) (frm : Int) (msg : Bytes)
    (hput : ∀ p, put p (slots p) = p) : ∃ s, MsgFn s ∧ ∀ p, (accept kind wrong slots put frm msg p).2 = put p (s (slots p)) := by
  unfold accept
  cases b64Decode msg with
  | none => exact ⟨id, .id, fun p => (hput p).symm⟩
  | some b =>
    simp only
    by_cases h0 : 0 ≤ frm
    · refine ⟨fun l => l.set frm.toNat b, .inr ⟨_, _, rfl⟩, fun p => ?_⟩
      by_cases hl : frm < (slots p).length
      · rw [if_pos ⟨h0, hl⟩]
        split
        · rfl
        · split <;> rfl
      · rw [if_neg fun h => hl h.2]
        show p = put p ((slots p).set frm.toNat b)
        rw [List.set_eq_of_length_le (by omega), hput]
    · refine ⟨id, .id, fun p => ?_⟩
      rw [if_neg fun h => h0 h.1]
      exact (hput p).symm

theorem r1Accept_effect (frm : Int) (msg : Bytes) : ∃ s11 s12, MsgFn s11 ∧ MsgFn s12 ∧
    ∀ p, (r1Accept frm msg p).2 = { p with m11 := s11 p.m11, m12 := s12 p.m12 } := by
  unfold r1Accept
  cases b64Decode msg with
  | none => exact ⟨id, id, .id, .id, fun p => rfl⟩
  | some b =>
    simp only
    cases parseWireMsg b with
    | none => exact ⟨id, id, .id, .id, fun p => rfl⟩
    | some c =>
      by_cases h0 : 0 ≤ frm
      · cases c with
        | sg1a x =>
          refine ⟨fun l => l.set frm.toNat b, id, .inr ⟨_, _, rfl⟩, .id, fun p => ?_⟩
          simp only
          by_cases hl : frm < p.m11.length
          · rw [if_pos ⟨h0, hl⟩]; rfl
          · rw [if_neg fun h => hl h.2, List.set_eq_of_length_le (by omega)]; rfl
        | sg1b x =>
          refine ⟨id, fun l => l.set frm.toNat b, .id, .inr ⟨_, _, rfl⟩, fun p => ?_⟩
          simp only
          by_cases hl : frm < p.m12.length
          · rw [if_pos ⟨h0, hl⟩]; rfl
          · rw [if_neg fun h => hl h.2, List.set_eq_of_length_le (by omega)]; rfl
        | _ => exact ⟨id, id, .id, .id, fun p => rfl⟩
      · refine ⟨id, id, .id, .id, fun p => ?_⟩
        cases c <;> simp only [if_neg fun h => h0 (And.left h)] <;> rfl

/-- what a message call does to the party -/
theorem msg_effect (e : Env) (op : Op) (h : spec.isMsg op = true) : ∃ s11 s12 s2 s3, MsgFn s11 ∧ MsgFn s12 ∧ MsgFn s2 ∧ MsgFn s3 ∧
    (∀ r, r op.key = none → (op.run e r).2 = r) ∧
    ∀ r p, r op.key = some p → (op.run e r).2 = Reg.set r op.key (some { p with m11 := s11 p.m11, m12 := s12 p.m12, m2 := s2 p.m2, m3 := s3 p.m3 }) := by
  have keep : ∀ {α : Type} (k : Bytes) (nf : Err) (g : Party → Res Err α), ∃ s11 s12 s2 s3, MsgFn s11 ∧ MsgFn s12 ∧ MsgFn s2 ∧ MsgFn s3 ∧
      (∀ r : Reg, r k = none → (withParty nf r k fun p => (g p, p)).2 = r) ∧
      ∀ (r : Reg) p, r k = some p → (withParty nf r k fun p => (g p, p)).2 = Reg.set r k (some { p with m11 := s11 p.m11, m12 := s12 p.m12, m2 := s2 p.m2, m3 := s3 p.m3 }) :=
    fun k nf g => ⟨id, id, id, id, .id, .id, .id, .id, fun r hk => by rw [withParty_none nf _ hk], fun r p hk => by rw [withParty_some nf _ hk]; rfl⟩
  cases op with
  | acc1 k frm msg =>
    obtain ⟨s11, s12, h1, h2, h3⟩ := r1Accept_effect frm msg
    refine ⟨s11, s12, id, id, h1, h2, .id, .id, fun r hk => ?_, fun r p hk => ?_⟩
    · show (withParty (.partyNotFound k) r k (r1Accept frm msg)).2 = r
      rw [withParty_none (key := k) _ _ hk]
    · show (withParty (.partyNotFound k) r k (r1Accept frm msg)).2 = _
      rw [withParty_some (key := k) _ _ hk, h3]; rfl
  | acc2 k frm msg =>
    obtain ⟨s, h1, h3⟩ := accept_effect .sg2 .notRound2 (·.m2) (fun p l => { p with m2 := l }) frm msg fun _ => rfl
    refine ⟨id, id, s, id, .id, .id, h1, .id, fun r hk => ?_, fun r p hk => ?_⟩
    · show (withParty (.partyNotFound k) r k (accept .sg2 .notRound2 (·.m2) (fun p l => { p with m2 := l }) frm msg)).2 = r
      rw [withParty_none (key := k) _ _ hk]
    · show (withParty (.partyNotFound k) r k (accept .sg2 .notRound2 (·.m2) (fun p l => { p with m2 := l }) frm msg)).2 = _
      rw [withParty_some (key := k) _ _ hk, h3]; rfl
  | acc3 k frm msg =>
    obtain ⟨s, h1, h3⟩ := accept_effect .sg3 .notRound3 (·.m3) (fun p l => { p with m3 := l }) frm msg fun _ => rfl
    refine ⟨id, id, id, s, .id, .id, .id, h1, fun r hk => ?_, fun r p hk => ?_⟩
    · show (withParty (.partyNotFound k) r k (accept .sg3 .notRound3 (·.m3) (fun p l => { p with m3 := l }) frm msg)).2 = r
      rw [withParty_none (key := k) _ _ hk]
    · show (withParty (.partyNotFound k) r k (accept .sg3 .notRound3 (·.m3) (fun p l => { p with m3 := l }) frm msg)).2 = _
      rw [withParty_some (key := k) _ _ hk, h3]; rfl
  | get1 k t => exact keep k _ fun p => getMsg p.send12 t
  | get2 k t => exact keep k _ fun p => getMsg p.send2 t
  | fin1 k => exact keep k _ fun p => finish1 0 p.m11 p.m12
  | fin2 k => exact keep k _ fun p => finish 0 p.m2
  | fin3 k => exact keep k _ fun p => finish 0 p.m3
  | _ => cases h

/-! ### Tries -/

/-- The relation between the party after failed tries and without them. -/
def Rel : spec.Stage → Party → Party → Prop
  | .one => Rel1
  | .two => Rel2
  | .three => Rel3
  | .last => Rel4

theorem Rel.refl (st : spec.Stage) (p : Party) : Rel st p p := by
  cases st
  · exact Rel1.refl p
  · exact Rel2.refl p
  · exact Rel3.refl p
  · exact Rel4.refl p

theorem Rel.msgs (st : spec.Stage) {p q : Party} (h : Rel st p q) {s11 s12 s2 s3 : List Bytes → List Bytes} (h11 : MsgFn s11) (h12 : MsgFn s12)
    (h2 : MsgFn s2) : Rel st { p with m11 := s11 p.m11, m12 := s12 p.m12, m2 := s2 p.m2, m3 := s3 p.m3 }
      { q with m11 := s11 q.m11, m12 := s12 q.m12, m2 := s2 q.m2, m3 := s3 q.m3 } := by
  cases st
  · exact Rel1.msgs h h11 h12
  · exact Rel2.msgs h h11 h2
  · exact Rel3.msgs h
  · exact Rel4.msgs h

/-- a try from related parties: same answer; if it fails they stay related, if it succeeds they become equal -/
theorem try_effect (e : Env) (st : spec.Stage) (op : Op) (h : spec.executes st op = true) :
    (∀ r, r op.key = none → op.run e r = (.res (.err (.partyNotFound op.key)), r)) ∧
    ∃ f : Party → Out × Party, (∀ r p, r op.key = some p → op.run e r = ((f p).1, Reg.set r op.key (some (f p).2))) ∧
      ∀ p q, Rel st p q → (f p).1 = (f q).1 ∧ (spec.Failed (f p).1 → Rel st (f p).2 q) ∧ (¬ spec.Failed (f q).1 → (f p).2 = (f q).2) := by
  have hst : spec.stage op = some st := by simpa [spec.executes] using h
  cases op with
  | exec1 k rnd =>
    injection hst with hst; subst hst
    refine ⟨fun r hk => ?_, fun p => (.res (r1Exec e rnd p).1, (r1Exec e rnd p).2), fun r p hk => ?_, fun p q hpq => ?_⟩
    · show (Out.res (withParty (.partyNotFound k) r k (r1Exec e rnd)).1, (withParty (.partyNotFound k) r k (r1Exec e rnd)).2) = _
      rw [withParty_none (key := k) _ _ hk]; rfl
    · show (Out.res (withParty (.partyNotFound k) r k (r1Exec e rnd)).1, (withParty (.partyNotFound k) r k (r1Exec e rnd)).2) = _
      rw [withParty_some (key := k) _ _ hk]; rfl
    · obtain ⟨h1, h2, h3⟩ := r1Exec_rel e rnd p q hpq
      refine ⟨congrArg Out.res h1, fun _ => h2, fun hf => ?_⟩
      cases ho : (r1Exec e rnd q).1 with
      | ok b => exact h3 b ho
      | err er => exact absurd (by simp only [ho]; trivial) hf
      | panic => exact absurd (by simp only [ho]; trivial) hf
  | exec2 k d =>
    injection hst with hst; subst hst
    refine ⟨fun r hk => ?_, fun p => (.res (noData (r2Exec e d p).1), (r2Exec e d p).2), fun r p hk => ?_, fun p q hpq => ?_⟩
    · show (Out.res (noData (withParty (.partyNotFound k) r k (r2Exec e d)).1), (withParty (.partyNotFound k) r k (r2Exec e d)).2) = _
      rw [withParty_none (key := k) _ _ hk]; rfl
    · show (Out.res (noData (withParty (.partyNotFound k) r k (r2Exec e d)).1), (withParty (.partyNotFound k) r k (r2Exec e d)).2) = _
      rw [withParty_some (key := k) _ _ hk]; rfl
    · obtain ⟨h1, h2, h3⟩ := r2Exec_rel e d p q hpq
      refine ⟨congrArg (fun o => Out.res (noData o)) h1, fun _ => h2, fun hf => ?_⟩
      cases ho : (r2Exec e d q).1 with
      | ok b => exact h3 ho
      | err er => exact absurd (by simp only [ho]; trivial) hf
      | panic => exact absurd (by simp only [ho]; trivial) hf
  | exec3 k z =>
    injection hst with hst; subst hst
    refine ⟨fun r hk => ?_, fun p => (.res (r3Exec e z p).1, (r3Exec e z p).2), fun r p hk => ?_, fun p q hpq => ?_⟩
    · show (Out.res (withParty (.partyNotFound k) r k (r3Exec e z)).1, (withParty (.partyNotFound k) r k (r3Exec e z)).2) = _
      rw [withParty_none (key := k) _ _ hk]; rfl
    · show (Out.res (withParty (.partyNotFound k) r k (r3Exec e z)).1, (withParty (.partyNotFound k) r k (r3Exec e z)).2) = _
      rw [withParty_some (key := k) _ _ hk]; rfl
    · obtain ⟨h1, h2⟩ := r3Exec_rel e z p q hpq
      refine ⟨by simp only [h1], fun hf => h2 fun b hb => ?_, fun _ => by simp only [h1]⟩
      simp only [hb] at hf
      exact hf
  | final k =>
    injection hst with hst; subst hst
    refine ⟨fun r hk => ?_, fun p => (.res (finalExec e p).1, (finalExec e p).2), fun r p hk => ?_, fun p q hpq => ?_⟩
    · show (Out.res (withParty (.partyNotFound k) r k (finalExec e)).1, (withParty (.partyNotFound k) r k (finalExec e)).2) = _
      rw [withParty_none (key := k) _ _ hk]; rfl
    · show (Out.res (withParty (.partyNotFound k) r k (finalExec e)).1, (withParty (.partyNotFound k) r k (finalExec e)).2) = _
      rw [withParty_some (key := k) _ _ hk]; rfl
    · obtain ⟨h1, h2, h3⟩ := finalExec_rel e p q hpq
      refine ⟨congrArg Out.res h1, fun _ => h2, fun hf => ?_⟩
      cases ho : (finalExec e q).1 with
      | ok b => exact h3 b ho
      | err er => exact absurd (by simp only [ho]; trivial) hf
      | panic => exact absurd (by simp only [ho]; trivial) hf
  | _ => cases hst

theorem tries_of (e : Env) (key : Bytes) (st : spec.Stage) : ∀ (ops : List Op) (r : Reg), spec.OnlyFailedTries e key st ops r →
    Tries (Op.run e) (fun op => op.key == key) spec.isMsg (spec.executes st) spec.Failed ops r
  | [], _, _ => trivial
  | _ :: t, _, h => ⟨fun hm => h.1 (by simpa using hm), tries_of e key st t _ h.2⟩

theorem runs_runOps (e : Env) : ∀ (ops : List Op) (r : Reg), runs (Op.run e) ops r = runOps e ops r
  | [], _ => rfl
  | _ :: t, _ => runs_runOps e t _

/-- the registries with and without the failed tries -/
theorem tries_related (e : Env) (key : Bytes) (st : spec.Stage) (ops : List Op) (r : Reg) (h : spec.OnlyFailedTries e key st ops r) :
    RelReg (Rel st) key (runOps e ops r) (runOps e (spec.withoutTries key st ops) r) := by
  have := tries_rel (Op.run e) Op.key key (fun op r k hk => run_other e op r k hk) (fun op r r' hr => (run_local e op r r' hr).2) (Rel st)
    spec.isMsg (spec.executes st) spec.Failed
    (fun op ho => by cases op <;> first | rfl | cases ho)
    (fun op r s hk ho hrs => by
      obtain ⟨s11, s12, s2, s3, m1, m2, m3, -, e1, e2⟩ := msg_effect e op ho
      subst hk
      refine ⟨fun k hk => by rw [run_other e op r k hk, run_other e op s k hk]; exact hrs.1 k hk, ?_⟩
      rcases hrs.2 with ⟨a, b⟩ | ⟨p, q, a, b, c⟩
      · left; rw [e1 r a, e1 s b]; exact ⟨a, b⟩
      · right
        rw [e2 r p a, e2 s q b]
        exact ⟨_, _, set_same _ _ _, set_same _ _ _, Rel.msgs st c m1 m2 m3⟩)
    (fun op r s hk ho hf hrs => by
      obtain ⟨e1, f, e2, e3⟩ := try_effect e st op ho
      subst hk
      refine ⟨fun k hk => by rw [run_other e op r k hk]; exact hrs.1 k hk, ?_⟩
      rcases hrs.2 with ⟨a, b⟩ | ⟨p, q, a, b, c⟩
      · left; rw [e1 r a]; exact ⟨a, b⟩
      · right
        rw [e2 r p a] at hf ⊢
        exact ⟨_, q, set_same _ _ _, b, (e3 p q c).2.1 hf⟩)
    ops r r (tries_of e key st ops r h) (RelReg.refl (Rel.refl st) key r)
  rw [runs_runOps, runs_runOps] at this
  exact this

/-- C104. A signing round that did not succeed can be tried again: whatever tries of it failed before, and whatever
messages were handed in or replaced in between, the next try returns what it would have returned if they had never been
made, and if it succeeds, the whole registry is what it would have been then. -/
theorem C104_sign_retry (e : Env) (key : Bytes) (st : spec.Stage) (ops : List Op) (r : Reg) (op : Op) (hk : op.key = key)
    (ho : spec.executes st op = true) (h : spec.OnlyFailedTries e key st ops r) :
    (op.run e (runOps e ops r)).1 = (op.run e (runOps e (spec.withoutTries key st ops) r)).1 ∧
    (¬ spec.Failed (op.run e (runOps e ops r)).1 →
      (op.run e (runOps e ops r)).2 = (op.run e (runOps e (spec.withoutTries key st ops) r)).2) := by
  have hrel := tries_related e key st ops r h
  generalize runOps e ops r = a at *
  generalize runOps e (spec.withoutTries key st ops) r = b at *
  obtain ⟨e1, f, e2, e3⟩ := try_effect e st op ho
  subst hk
  rcases hrel.2 with ⟨ha, hb⟩ | ⟨p, q, ha, hb, hc⟩
  · rw [e1 a ha, e1 b hb]
    exact ⟨rfl, fun hf => absurd trivial hf⟩
  · rw [e2 a p ha, e2 b q hb]
    obtain ⟨f1, -, f3⟩ := e3 p q hc
    refine ⟨f1, fun hf => ?_⟩
    rw [f1] at hf
    funext k
    by_cases hk : k = op.key
    · subst hk
      show Reg.set a op.key _ op.key = Reg.set b op.key _ op.key
      rw [set_same, set_same, f3 hf]
    · show Reg.set a op.key _ k = Reg.set b op.key _ k
      rw [set_other _ _ hk, set_other _ _ hk]
      exact hrel.1 k hk

end Tss.Onsign
