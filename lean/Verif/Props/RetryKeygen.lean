import Verif.Lemmas.Retry
import Verif.Lemmas.OnsignFinal
import Verif.Props.World
import Verif.Props.Broadcast
import Verif.Props.KeygenRounds
/-
C104 for key generation: which rounds can be tried again, and which one cannot.
-/
namespace Tss.Keygen
open Tss Text Wire Retry

/-! ### Specification -/

/-- The rounds of key generation that return errors and leave nothing behind when they do. -/
inductive spec.Stage where
  | two | four
  deriving DecidableEq

/-- The call executes that round. -/
def spec.executes : spec.Stage → Op → Bool
  | .two, .exec2 _ => true
  | .four, .exec4 _ => true
  | _, _ => false

/-- The call hands in or checks messages: the `Accept` and `Finish` functions. -/
def spec.isMsg : Op → Bool
  | .acc .. | .fin .. => true
  | _ => false

/-- The call did not return Ok. -/
def spec.Failed : Out → Prop
  | .res (.ok _) => False
  | .res (.err _) => True
  | .res .panic => True
  | .bool b => b = false

/-- While the calls are served from registry `r`, the session under `key` only sees message calls and tries of the
round `st` that do not succeed; other sessions see anything. -/
def spec.OnlyFailedTries (e : Env) (key : Bytes) (st : spec.Stage) : List Op → Reg → Prop
  | [], _ => True
  | op :: t, r =>
    (op.key = key → spec.isMsg op = true ∨ (spec.executes st op = true ∧ spec.Failed (op.run e r).1)) ∧
    spec.OnlyFailedTries e key st t (op.run e r).2

/-- The calls without the tries of round `st` of the session `key`. -/
def spec.withoutTries (key : Bytes) (st : spec.Stage) (ops : List Op) : List Op :=
  ops.filter fun op => !(op.key == key && spec.executes st op)

/-! ### Message calls -/

theorem accept_effect (kind : Kind) (slots : Party → List Bytes) (put : Party → List Bytes → Party) (frm : Int) (msg : Bytes)
    (hput : ∀ p, put p (slots p) = p) : ∃ s, MsgFn s ∧ ∀ p, (accept kind slots put frm msg p).2 = put p (s (slots p)) := by
  unfold accept
  cases b64Decode msg with
  | none => exact ⟨id, .id, fun p => (hput p).symm⟩
  | some b =>
    simp only
    by_cases h0 : 0 ≤ frm
    · refine ⟨fun l => l.set frm.toNat b, .inr ⟨_, _, rfl⟩, fun p => ?_⟩
      by_cases hl : frm < (slots p).length
      · rw [if_pos ⟨h0, hl⟩]
        split
        · rfl
        · split <;> rfl
      · rw [if_neg fun h => hl h.2]
        show p = put p ((slots p).set frm.toNat b)
        rw [List.set_eq_of_length_le (by omega), hput]
    · refine ⟨id, .id, fun p => ?_⟩
      rw [if_neg fun h => h0 h.1]
      exact (hput p).symm

/-- what a message call does to the party -/
theorem msg_effect (e : Env) (op : Op) (h : spec.isMsg op = true) : ∃ s1 s2 s3, MsgFn s1 ∧ MsgFn s2 ∧ MsgFn s3 ∧
    (∀ r, r op.key = none → (op.run e r).2 = r) ∧
    ∀ r p, r op.key = some p → (op.run e r).2 = Reg.set r op.key (some { p with m1 := s1 p.m1, m2 := s2 p.m2, m3 := s3 p.m3 }) := by
  have keep : ∀ (k : Bytes) (g : Party → Res Err Unit), ∃ s1 s2 s3, MsgFn s1 ∧ MsgFn s2 ∧ MsgFn s3 ∧
      (∀ r : Reg, r k = none → (withParty r k fun p => (g p, p)).2 = r) ∧
      ∀ (r : Reg) p, r k = some p → (withParty r k fun p => (g p, p)).2 = Reg.set r k (some { p with m1 := s1 p.m1, m2 := s2 p.m2, m3 := s3 p.m3 }) :=
    fun k g => ⟨id, id, id, .id, .id, .id, fun r hk => by rw [withParty_none _ hk], fun r p hk => by rw [withParty_some _ hk]; rfl⟩
  cases op with
  | acc rd k frm msg =>
    cases rd with
    | one =>
      obtain ⟨s, h1, h3⟩ := accept_effect .kg1 (·.m1) (fun p l => { p with m1 := l }) frm msg fun _ => rfl
      refine ⟨s, id, id, h1, .id, .id, fun r hk => ?_, fun r p hk => ?_⟩
      · show (withParty r k (accept .kg1 (·.m1) (fun p l => { p with m1 := l }) frm msg)).2 = r
        rw [withParty_none (key := k) _ hk]
      · show (withParty r k (accept .kg1 (·.m1) (fun p l => { p with m1 := l }) frm msg)).2 = _
        rw [withParty_some (key := k) _ hk, h3]; rfl
    | two =>
      obtain ⟨s, h1, h3⟩ := accept_effect .kg2 (·.m2) (fun p l => { p with m2 := l }) frm msg fun _ => rfl
      refine ⟨id, s, id, .id, h1, .id, fun r hk => ?_, fun r p hk => ?_⟩
      · show (withParty r k (accept .kg2 (·.m2) (fun p l => { p with m2 := l }) frm msg)).2 = r
        rw [withParty_none (key := k) _ hk]
      · show (withParty r k (accept .kg2 (·.m2) (fun p l => { p with m2 := l }) frm msg)).2 = _
        rw [withParty_some (key := k) _ hk, h3]; rfl
    | three =>
      obtain ⟨s, h1, h3⟩ := accept_effect .kg3 (·.m3) (fun p l => { p with m3 := l }) frm msg fun _ => rfl
      refine ⟨id, id, s, .id, .id, h1, fun r hk => ?_, fun r p hk => ?_⟩
      · show (withParty r k (accept .kg3 (·.m3) (fun p l => { p with m3 := l }) frm msg)).2 = r
        rw [withParty_none (key := k) _ hk]
      · show (withParty r k (accept .kg3 (·.m3) (fun p l => { p with m3 := l }) frm msg)).2 = _
        rw [withParty_some (key := k) _ hk, h3]; rfl
  | fin rd k =>
    cases rd with
    | one => exact keep k fun p => finish p.index 0 p.m1
    | two => exact keep k fun p => finish p.index 0 p.m2
    | three => exact keep k fun p => finish p.index 0 p.m3
  | _ => cases h

/-! ### Round 2 -/

/-- After failed tries of round 2 (`p`) and without them (`q`). -/
def Rel2 (p q : Party) : Prop := ∃ number ok V, p = { q with number := number, ok := ok, V := V } ∧ ok.length = q.ok.length ∧
  Agree (· < q.m1.length) V q.V

/-- what round 2 records for one sender -/
def vupd (m1 : List Bytes) (j : Nat) (V : List Bytes) : List Bytes :=
  match parseWireMsg (m1.getD j []) with
  | some (.kg1 c) => V.set j c
  | _ => V

/-- the outcome of round 2 for one sender -/
def vres (m1 : List Bytes) (j : Nat) : Res Err Unit :=
  match parseWireMsg (m1.getD j []) with
  | none => .err .parse
  | some (.kg1 _) => .ok ()
  | some _ => .panic

theorem r2Step_core (p : Party) (V : List Bytes) (j : Nat) :
    r2Step { p with V := V } j = (vres p.m1 j, { p with V := vupd p.m1 j V }) := by
  unfold r2Step vupd vres
  simp only
  cases parseWireMsg (p.m1.getD j []) with
  | none => rfl
  | some c => cases c <;> rfl

theorem vupd_cases (m1 : List Bytes) (j : Nat) : (∃ w, ∀ V, vupd m1 j V = V.set j w) ∨ (vres m1 j ≠ .ok () ∧ ∀ V, vupd m1 j V = V) := by
  unfold vres vupd
  cases parseWireMsg (m1.getD j []) with
  | none => exact .inr ⟨by simp, fun _ => rfl⟩
  | some c =>
    cases c with
    | kg1 w => exact .inl ⟨w, fun _ => rfl⟩
    | _ => exact .inr ⟨by simp, fun _ => rfl⟩

/-- what round 2 does after its loop -/
def r2Tail : Res Err Unit × Party → Res Err Bytes × Party
  | (.ok _, p) =>
    match p.save.pubXj.getD p.index none, p.commitedA with
    | some X, some A =>
      let wire := wireBytes (.kg2 p.ssid p.srid (intBytes X.x) (intBytes X.y) (intBytes A.x) (intBytes A.y)
        p.u [] [] [])
      (.ok wire, { p with m2 := p.m2.set p.index wire })
    | _, _ => (.panic, p)
  | (.err e, p) => (.err e, p)
  | (.panic, p) => (.panic, p)

theorem r2Exec_eq (q : Party) (n : Nat) (o : List Bool) (V : List Bytes) (ho : o.length = q.ok.length) :
    r2Exec { q with number := n, ok := o, V := V } = r2Tail (outcome (vres q.m1) (List.range q.m1.length),
      { q with number := 2, ok := q.ok.map fun _ => false, V := done (vres q.m1) (vupd q.m1) (List.range q.m1.length) V }) := by
  have h : r2Exec { q with number := n, ok := o, V := V } = r2Tail (forJ r2Step (List.range q.m1.length)
      { q with number := 2, ok := o.map fun _ => false, V := V }) := rfl
  rw [h, map_false ho]
  exact congrArg r2Tail (forJ_core r2Step (fun V => { q with number := 2, ok := q.ok.map fun _ => false, V := V }) _ _
      (fun V j => r2Step_core { q with number := 2, ok := q.ok.map fun _ => false } V j) _ V)

theorem r2Tail_failed (s : Res Err Unit × Party) (h : spec.Failed (.res (r2Tail s).1)) : (r2Tail s).2 = s.2 := by
  rcases s with ⟨o, p⟩
  cases o with
  | err er => rfl
  | panic => rfl
  | ok u =>
    revert h
    unfold r2Tail
    simp only
    cases p.save.pubXj.getD p.index none with
    | none => exact fun _ => rfl
    | some X =>
      cases ha : p.commitedA with
      | none => simp
      | some A => exact fun h => h.elim

/-- round 2 from related parties -/
theorem r2Exec_rel (p q : Party) (h : Rel2 p q) : (r2Exec p).1 = (r2Exec q).1 ∧ (spec.Failed (.res (r2Exec p).1) → Rel2 (r2Exec p).2 q) ∧
    (∀ b, (r2Exec q).1 = .ok b → (r2Exec p).2 = (r2Exec q).2) := by
  obtain ⟨n, o, V, rfl, a1, a2⟩ := h
  have E1 := r2Exec_eq q n o V a1
  have E2 : r2Exec q = _ := r2Exec_eq q q.number q.ok q.V rfl
  rw [E1, E2]
  have hcc := vupd_cases q.m1
  generalize vres q.m1 = res at *
  generalize vupd q.m1 = upd at *
  have I : Agree (· < q.m1.length) (done res upd (List.range q.m1.length) V) q.V :=
    done_inv (I := fun V => Agree (· < q.m1.length) V q.V) res _ _ V (fun j hj w hw => by
      rcases hcc j with ⟨v, hv⟩ | ⟨-, hv⟩
      · rw [hv]; exact hw.set_left j (List.mem_range.1 hj) v
      · rw [hv]; exact hw) a2
  refine ⟨?_, fun hf => ?_, fun b hb => ?_⟩
  · cases outcome res (List.range q.m1.length) with
    | err er => rfl
    | panic => rfl
    | ok u =>
      unfold r2Tail
      simp only
      cases q.save.pubXj.getD q.index none with
      | none => rfl
      | some X =>
        cases ha : q.commitedA <;> rfl
  · rw [r2Tail_failed _ hf]
    exact ⟨2, q.ok.map fun _ => false, _, rfl, by simp, I⟩
  · cases ho : outcome res (List.range q.m1.length) with
    | err er => rw [ho] at hb; cases hb
    | panic => rw [ho] at hb; cases hb
    | ok u =>
      have S := done_sync (R := fun l w w' => Agree (· ∈ l) w w') res upd (fun j t w w' hj hR => by
          rcases hcc j with ⟨v, hv⟩ | ⟨hv, -⟩
          · rw [hv, hv]; exact (hR.set j v).mono fun k hk => (List.mem_cons.1 hk.1).resolve_left hk.2
          · exact absurd hj hv) (List.range q.m1.length) V q.V ho (a2.mono fun j hj => List.mem_range.2 hj)
      rw [S.eq fun j hj => by cases hj]

theorem Rel2.refl (p : Party) : Rel2 p p := ⟨_, _, _, rfl, rfl, .refl _ _⟩

theorem Rel2.msgs {p q : Party} (h : Rel2 p q) {s1 s2 s3 : List Bytes → List Bytes} (h1 : MsgFn s1) :
    Rel2 { p with m1 := s1 p.m1, m2 := s2 p.m2, m3 := s3 p.m3 } { q with m1 := s1 q.m1, m2 := s2 q.m2, m3 := s3 q.m3 } := by
  obtain ⟨n, o, V, rfl, a1, a2⟩ := h
  refine ⟨n, o, V, rfl, a1, ?_⟩
  show Agree (· < (s1 q.m1).length) V q.V
  rw [h1.length]
  exact a2

/-! ### Round 4 -/

/-- After failed tries of round 4 (`p`) and without them (`q`). -/
def Rel4 (p q : Party) : Prop := ∃ number ok pub, p = { q with number := number, ok := ok, save := { q.save with eddsaPub := pub } } ∧
  ok.length = q.ok.length

theorem Rel4.refl (p : Party) : Rel4 p p := ⟨_, _, _, rfl, rfl⟩

theorem Rel4.msgs {p q : Party} (h : Rel4 p q) {s1 s2 s3 : List Bytes → List Bytes} :
    Rel4 { p with m1 := s1 p.m1, m2 := s2 p.m2, m3 := s3 p.m3 } { q with m1 := s1 q.m1, m2 := s2 q.m2, m3 := s3 q.m3 } := by
  obtain ⟨n, o, V, rfl, a1⟩ := h
  exact ⟨n, o, V, rfl, a1⟩

theorem r4Step_state (e : Env) (p : Party) (j : Nat) : (r4Step e p j).2 = p := by
  unfold r4Step
  split
  · rfl
  · split
    · rfl
    · split
      · simp only
        split
        · split <;> rfl
        · rfl
      · rfl

theorem r4Step_pub (e : Env) (q : Party) (pub : Option ECPoint) (j : Nat) :
    (r4Step e { q with save := { q.save with eddsaPub := pub } } j).1 = (r4Step e q j).1 := by
  unfold r4Step
  simp only
  split
  · rfl
  · split
    · rfl
    · split
      · split
        · split <;> rfl
        · rfl
      · rfl

/-- what round 4 does after its loop -/
def r4Tail (e : Env) : Res Err Unit × Party → Res Err Bytes × Party
  | (.ok _, p) =>
    match p.save.pubXj with
    | some X0 :: t =>
      match sumPub e.c 1 X0 t with
      | .ok s =>
        let p := { p with save := { p.save with eddsaPub := some s } }
        match e.jsonEnc p.save with
        | some b => (.ok b, p)
        | none => (.err .saveJson, p)
      | .err er => (.err er, p)
      | .panic => (.panic, p)
    | _ => (.panic, p)
  | (.err e, p) => (.err e, p)
  | (.panic, p) => (.panic, p)

theorem r4Exec_eq (e : Env) (q : Party) (n : Nat) (o : List Bool) (pub : Option ECPoint) (ho : o.length = q.ok.length) :
    r4Exec e { q with number := n, ok := o, save := { q.save with eddsaPub := pub } } =
    r4Tail e (outcome (fun j => (r4Step e { q with number := 4, ok := q.ok.map fun _ => false } j).1) (List.range q.m3.length),
      { q with number := 4, ok := q.ok.map fun _ => false, save := { q.save with eddsaPub := pub } }) := by
  have h : r4Exec e { q with number := n, ok := o, save := { q.save with eddsaPub := pub } } = r4Tail e (forJ (r4Step e) (List.range q.m3.length)
      { q with number := 4, ok := o.map fun _ => false, save := { q.save with eddsaPub := pub } }) := rfl
  rw [h, map_false ho]
  refine congrArg (r4Tail e) ?_
  have := forJ_core (r4Step e) (fun _ : Unit => ({ q with number := 4, ok := q.ok.map fun _ => false, save := { q.save with eddsaPub := pub } } : Party))
    (fun j => (r4Step e { q with number := 4, ok := q.ok.map fun _ => false } j).1) (fun _ u => u)
    (fun w j => Prod.ext (r4Step_pub e { q with number := 4, ok := q.ok.map fun _ => false } pub j) (r4Step_state e _ j)) (List.range q.m3.length) ()
  exact this

/-- round 4 from related parties -/
theorem r4Exec_rel (e : Env) (p q : Party) (h : Rel4 p q) : (r4Exec e p).1 = (r4Exec e q).1 ∧ Rel4 (r4Exec e p).2 q ∧
    (∀ b, (r4Exec e q).1 = .ok b → (r4Exec e p).2 = (r4Exec e q).2) := by
  obtain ⟨n, o, pub, rfl, a1⟩ := h
  have E1 := r4Exec_eq e q n o pub a1
  have E2 : r4Exec e q = _ := r4Exec_eq e q q.number q.ok q.save.eddsaPub rfl
  rw [E1, E2]
  have relv : ∀ pub, Rel4 { q with number := 4, ok := q.ok.map fun _ => false, save := { q.save with eddsaPub := pub } } q :=
    fun pub => ⟨4, _, pub, rfl, by simp⟩
  cases outcome (fun j => (r4Step e { q with number := 4, ok := q.ok.map fun _ => false } j).1) (List.range q.m3.length) with
  | err er => exact ⟨rfl, relv _, fun b h => by cases h⟩
  | panic => exact ⟨rfl, relv _, fun b h => by cases h⟩
  | ok u =>
    unfold r4Tail
    simp only
    rcases hx : q.save.pubXj with _ | ⟨x, t⟩
    · exact ⟨rfl, by simp only; rw [← hx]; exact relv _, fun b h => by cases h⟩
    · cases x with
      | none => exact ⟨rfl, by simp only; rw [← hx]; exact relv _, fun b h => by cases h⟩
      | some X0 =>
        simp only
        rw [← hx]
        cases sumPub e.c 1 X0 t with
        | err er => exact ⟨rfl, relv _, fun b h => by cases h⟩
        | panic => exact ⟨rfl, relv _, fun b h => by cases h⟩
        | ok s =>
          simp only
          cases e.jsonEnc _ with
          | none => exact ⟨trivial, relv _, fun b h => by cases h⟩
          | some b => exact ⟨trivial, relv _, fun _ _ => trivial⟩

/-! ### Tries -/

/-- The relation between the party after failed tries and without them. -/
def Rel : spec.Stage → Party → Party → Prop
  | .two => Rel2
  | .four => Rel4

theorem Rel.refl (st : spec.Stage) (p : Party) : Rel st p p := by
  cases st
  · exact Rel2.refl p
  · exact Rel4.refl p

theorem Rel.msgs (st : spec.Stage) {p q : Party} (h : Rel st p q) {s1 s2 s3 : List Bytes → List Bytes} (h1 : MsgFn s1) :
    Rel st { p with m1 := s1 p.m1, m2 := s2 p.m2, m3 := s3 p.m3 } { q with m1 := s1 q.m1, m2 := s2 q.m2, m3 := s3 q.m3 } := by
  cases st
  · exact Rel2.msgs h h1
  · exact Rel4.msgs h

/-- a try from related parties: same answer; if it fails they stay related, if it succeeds they become equal -/
theorem try_effect (e : Env) (st : spec.Stage) (op : Op) (h : spec.executes st op = true) :
    (∀ r, r op.key = none → op.run e r = (.res (.err (.partyNotFound op.key)), r)) ∧
    ∃ f : Party → Out × Party, (∀ r p, r op.key = some p → op.run e r = ((f p).1, Reg.set r op.key (some (f p).2))) ∧
      ∀ p q, Rel st p q → (f p).1 = (f q).1 ∧ (spec.Failed (f p).1 → Rel st (f p).2 q) ∧ (¬ spec.Failed (f q).1 → (f p).2 = (f q).2) := by
  cases st with
  | two =>
    cases op with
    | exec2 k =>
      refine ⟨fun r hk => ?_, fun p => (.res (r2Exec p).1, (r2Exec p).2), fun r p hk => ?_, fun p q hpq => ?_⟩
      · show (Out.res (withParty r k r2Exec).1, (withParty r k r2Exec).2) = _
        rw [withParty_none (key := k) _ hk]; rfl
      · show (Out.res (withParty r k r2Exec).1, (withParty r k r2Exec).2) = _
        rw [withParty_some (key := k) _ hk]; rfl
      · obtain ⟨h1, h2, h3⟩ := r2Exec_rel p q hpq
        refine ⟨congrArg Out.res h1, h2, fun hf => ?_⟩
        cases ho : (r2Exec q).1 with
        | ok b => exact h3 b ho
        | err er => exact absurd (by simp only [ho]; trivial) hf
        | panic => exact absurd (by simp only [ho]; trivial) hf
    | _ => cases h
  | four =>
    cases op with
    | exec4 k =>
      refine ⟨fun r hk => ?_, fun p => (.res (r4Exec e p).1, (r4Exec e p).2), fun r p hk => ?_, fun p q hpq => ?_⟩
      · show (Out.res (withParty r k (r4Exec e)).1, (withParty r k (r4Exec e)).2) = _
        rw [withParty_none (key := k) _ hk]; rfl
      · show (Out.res (withParty r k (r4Exec e)).1, (withParty r k (r4Exec e)).2) = _
        rw [withParty_some (key := k) _ hk]; rfl
      · obtain ⟨h1, h2, h3⟩ := r4Exec_rel e p q hpq
        refine ⟨congrArg Out.res h1, fun _ => h2, fun hf => ?_⟩
        cases ho : (r4Exec e q).1 with
        | ok b => exact h3 b ho
        | err er => exact absurd (by simp only [ho]; trivial) hf
        | panic => exact absurd (by simp only [ho]; trivial) hf
    | _ => cases h

theorem tries_of (e : Env) (key : Bytes) (st : spec.Stage) : ∀ (ops : List Op) (r : Reg), spec.OnlyFailedTries e key st ops r →
    Tries (Op.run e) (fun op => op.key == key) spec.isMsg (spec.executes st) spec.Failed ops r
  | [], _, _ => trivial
  | _ :: t, _, h => ⟨fun hm => h.1 (by simpa using hm), tries_of e key st t _ h.2⟩

theorem runs_runOps (e : Env) : ∀ (ops : List Op) (r : Reg), runs (Op.run e) ops r = runOps e ops r
  | [], _ => rfl
  | _ :: t, _ => runs_runOps e t _

/-- the registries with and without the failed tries -/
theorem tries_related (e : Env) (key : Bytes) (st : spec.Stage) (ops : List Op) (r : Reg) (h : spec.OnlyFailedTries e key st ops r) :
    RelReg (Rel st) key (runOps e ops r) (runOps e (spec.withoutTries key st ops) r) := by
  have := tries_rel (Op.run e) Op.key key (fun op r k hk => run_other e op r k hk) (fun op r r' hr => (run_local e op r r' hr).2) (Rel st)
    spec.isMsg (spec.executes st) spec.Failed
    (fun op ho => by cases st <;> cases op <;> first | rfl | cases ho)
    (fun op r s hk ho hrs => by
      obtain ⟨s1, s2, s3, m1, -, -, e1, e2⟩ := msg_effect e op ho
      subst hk
      refine ⟨fun k hk => by rw [run_other e op r k hk, run_other e op s k hk]; exact hrs.1 k hk, ?_⟩
      rcases hrs.2 with ⟨a, b⟩ | ⟨p, q, a, b, c⟩
      · left; rw [e1 r a, e1 s b]; exact ⟨a, b⟩
      · right
        rw [e2 r p a, e2 s q b]
        exact ⟨_, _, by simp [Reg.set], by simp [Reg.set], Rel.msgs st (s2 := s2) (s3 := s3) c m1⟩)
    (fun op r s hk ho hf hrs => by
      obtain ⟨e1, f, e2, e3⟩ := try_effect e st op ho
      subst hk
      refine ⟨fun k hk => by rw [run_other e op r k hk]; exact hrs.1 k hk, ?_⟩
      rcases hrs.2 with ⟨a, b⟩ | ⟨p, q, a, b, c⟩
      · left; rw [e1 r a]; exact ⟨a, b⟩
      · right
        rw [e2 r p a] at hf ⊢
        exact ⟨_, q, by simp [Reg.set], b, (e3 p q c).2.1 hf⟩)
    ops r r (tries_of e key st ops r h) (RelReg.refl (Rel.refl st) key r)
  rw [runs_runOps, runs_runOps] at this
  exact this

/-- C104. Rounds 2 and 4 of key generation can be tried again: whatever tries of the round failed before, and whatever
messages were handed in or replaced in between, the next try returns what it would have returned if they had never been
made, and if it succeeds, the whole registry is what it would have been then. -/
theorem C104_keygen_retry (e : Env) (key : Bytes) (st : spec.Stage) (ops : List Op) (r : Reg) (op : Op) (hk : op.key = key)
    (ho : spec.executes st op = true) (h : spec.OnlyFailedTries e key st ops r) :
    (op.run e (runOps e ops r)).1 = (op.run e (runOps e (spec.withoutTries key st ops) r)).1 ∧
    (¬ spec.Failed (op.run e (runOps e ops r)).1 →
      (op.run e (runOps e ops r)).2 = (op.run e (runOps e (spec.withoutTries key st ops) r)).2) := by
  have hrel := tries_related e key st ops r h
  generalize runOps e ops r = a at *
  generalize runOps e (spec.withoutTries key st ops) r = b at *
  obtain ⟨e1, f, e2, e3⟩ := try_effect e st op ho
  subst hk
  rcases hrel.2 with ⟨ha, hb⟩ | ⟨p, q, ha, hb, hc⟩
  · rw [e1 a ha, e1 b hb]
    exact ⟨rfl, fun hf => absurd trivial hf⟩
  · rw [e2 a p ha, e2 b q hb]
    obtain ⟨f1, -, f3⟩ := e3 p q hc
    refine ⟨f1, fun hf => ?_⟩
    rw [f1] at hf
    funext k
    by_cases hk : k = op.key
    · subst hk
      simp [Reg.set, f3 hf]
    · simp only [Reg.set, if_neg hk]
      exact hrel.1 k hk

/-! ### Round 3 -/

/-- round 3 succeeds when every peer's opening is accepted and round 1 was done -/
theorem r3Exec_succeeds {e : Env} {q : Party} {X A : ECPoint} {tau x : Int} (h : ∀ j, j < q.m2.length → j ≠ q.index → ∃ o, Accepts e q j o)
    (hX : q.save.pubXj.getD q.index none = some X) (hA : q.commitedA = some A) (ht : q.tau = some tau) (hx : q.save.privXi = some x) :
    ∃ p2, p2.srid = xorBytes q.srid (xorAll (peerSrids e.c q)) ∧
      r3Exec e q = (.ok (wireBytes (.kg3 (intBytes (Schnorr.Prove e.c.N tau (challenge e q.ssid p2.srid q.index X A) x)) [] [])), p2) := by
  obtain ⟨pay, pub, f1, -, -, -, f5⟩ := r3fold e (List.range q.m2.length) (resetOK { q with number := 3 }) (fun j hj hji => by
    obtain ⟨o, ho⟩ := h j (List.mem_range.1 hj) hji
    exact ⟨o, ho.1⟩)
  have hl := (r3Loop_ok_iff e (List.range q.m2.length) (resetOK { q with number := 3 }) _).mpr
    ⟨fun j hj hji => h j (List.mem_range.1 hj) hji, rfl⟩
  rw [f1] at hl
  have hidx : pub.getD q.index none = some X := by
    rw [f5, if_neg (by rintro ⟨-, hh, -⟩; exact hh rfl)]; exact hX
  have := r3Exec_of_loop (X := X) (A := A) (tau := tau) (x := x) hl hidx hA ht hx
  have hs : (r3Exec e q).2.srid = xorBytes q.srid (xorAll (peerSrids e.c q)) := by
    rw [this]; exact sridFold_eq e.c (resetOK { q with number := 3 })
  refine ⟨(r3Exec e q).2, hs, Prod.ext ?_ rfl⟩
  rw [hs, this]
  simp only
  rw [show sridFold e.c (resetOK { q with number := 3 }) (List.range q.m2.length) = xorBytes q.srid (xorAll (peerSrids e.c q)) from
    sridFold_eq e.c (resetOK { q with number := 3 })]
  rfl

/-- the contributions of the other parties with index in `l` -/
def contributions (c : Curve) (p : Party) (l : List Nat) : List Bytes := (l.filter fun j => j ≠ p.index).map (sridOf c p)

theorem sridFold_contributions (c : Curve) (p : Party) (l : List Nat) : sridFold c p l = xorBytes p.srid (xorAll (contributions c p l)) := by
  rw [← foldl_xor]
  unfold sridFold contributions
  generalize p.srid = s
  induction l generalizing s with
  | nil => rfl
  | cons a t ih =>
    by_cases ha : a = p.index
    · simp [ha, ih]
    · simp [ha, ih]

theorem xorAll_append (a b : List Bytes) : xorAll (a ++ b) = xorBytes (xorAll a) (xorAll b) := by
  conv_lhs => unfold xorAll
  rw [List.foldl_append, foldl_xor]
  rfl

theorem r3Step_unreadable (e : Env) (s : Party) (j : Nat) (hj : j ≠ s.index) (hb : parseWireMsg (s.m2.getD j []) = none) :
    r3Step e s j = (.err .parse, s) := by
  unfold r3Step
  rw [if_neg hj, hb]

theorem r3Exec_of_err {e : Env} {p s1 : Party} {er : Err}
    (hl : forJ (r3Step e) (List.range p.m2.length) (resetOK { p with number := 3 }) = (.err er, s1)) : r3Exec e p = (.err er, s1) := by
  unfold r3Exec
  simp only
  rw [show (resetOK { p with number := 3 }).m2.length = p.m2.length from rfl, hl]

/-- the state round 3 leaves behind when it stops at peer `j`'s unreadable message -/
theorem r3Exec_stops {e : Env} {p : Party} (j : Nat) (hj : j < p.m2.length) (hji : j ≠ p.index) (hb : parseWireMsg (p.m2.getD j []) = none)
    (h : ∀ k, k < j → k ≠ p.index → ∃ o, Accepts e p k o) : ∃ pay pub, pub.getD p.index none = p.save.pubXj.getD p.index none ∧
      r3Exec e p = (.err .parse, { p with
        number := 3
        ok := p.ok.map fun _ => false
        payload := pay
        save := { p.save with pubXj := pub }
        srid := xorBytes p.srid (xorAll (contributions e.c p (List.range j))) }) := by
  obtain ⟨pay, pub, f1, -, -, -, f5⟩ := r3fold e (List.range j) (resetOK { p with number := 3 }) (fun k hk hki => by
    obtain ⟨o, ho⟩ := h k (List.mem_range.1 hk) hki
    exact ⟨o, ho.1⟩)
  have hl := (r3Loop_ok_iff e (List.range j) (resetOK { p with number := 3 }) _).mpr
    ⟨fun k hk hki => h k (List.mem_range.1 hk) hki, rfl⟩
  rw [f1] at hl
  have hr : List.range p.m2.length = List.range j ++ j :: (List.range (p.m2.length - (j + 1))).map (j + 1 + ·) := by
    have h1 : p.m2.length = (j + 1) + (p.m2.length - (j + 1)) := by omega
    conv_lhs => rw [h1, List.range_add, List.range_succ]
    simp
  refine ⟨pay, pub, ?_, ?_⟩
  · rw [f5, if_neg (by rintro ⟨-, hh, -⟩; exact hh rfl)]; rfl
  · have hs := r3Step_unreadable e { resetOK { p with number := 3 } with
        payload := pay
        save := { (resetOK { p with number := 3 }).save with pubXj := pub }
        srid := sridFold e.c (resetOK { p with number := 3 }) (List.range j) } j hji hb
    have hf := Onsign.forJ_first (List.range j) j ((List.range (p.m2.length - (j + 1))).map (j + 1 + ·)) _ _ hl (by rw [hs]; simp)
    rw [← hr, hs] at hf
    rw [r3Exec_of_err hf, sridFold_contributions]
    rfl

/-- C104, round 3. Suppose round 3 would succeed on the messages handed in, but peer `j`'s message is first garbled: the
call fails, and when it is made again with the right message it succeeds — with a session randomness from which the
contributions of the peers before `j` are missing (the first, failed call had already mixed them in, and the second
one takes them out again), and with a proof for that randomness. -/
theorem C104_round3_retry_differs (e : Env) (p p' : Party) (out : Bytes) (h : r3Exec e p = (.ok out, p'))
    (hlen : ∀ b ∈ peerSrids e.c p, b.length ≤ p.srid.length) (j : Nat) (hj : j < p.m2.length) (hji : j ≠ p.index) (bad : Bytes)
    (hb : parseWireMsg bad = none) :
    ∃ pf p2 X A tau x, r3Exec e { p with m2 := p.m2.set j bad } = (.err .parse, pf) ∧
      p.commitedA = some A ∧ p.tau = some tau ∧ p.save.privXi = some x ∧ p.save.pubXj.getD p.index none = some X ∧
      r3Exec e { pf with m2 := pf.m2.set j (p.m2.getD j []) } =
        (.ok (wireBytes (.kg3 (intBytes (Schnorr.Prove e.c.N tau (challenge e p.ssid p2.srid p.index X A) x)) [] [])), p2) ∧
      p2.srid = xorBytes p.srid (xorAll (contributions e.c p ((List.range p.m2.length).filter fun k => j ≤ k))) ∧
      p'.srid = xorBytes p.srid (xorAll (contributions e.c p (List.range p.m2.length))) ∧
      out = wireBytes (.kg3 (intBytes (Schnorr.Prove e.c.N tau (challenge e p.ssid p'.srid p.index X A) x)) [] []) := by
  obtain ⟨hacc, pay, pub, X, A, tau, x, h1, h2, h3, h4, g2, g3, g4, g5, h5, rfl⟩ := r3Exec_ok h
  have hX : p.save.pubXj.getD p.index none = some X := by
    rw [← h1, g5, if_neg (by rintro ⟨-, hh, -⟩; exact hh rfl)]
  have gj : (p.m2.set j bad).getD j [] = bad := by
    rw [List.getD_eq_getElem?_getD, List.getElem?_set_self hj]; rfl
  have gk : ∀ k, k ≠ j → (p.m2.set j bad).getD k [] = p.m2.getD k [] := fun k hk => by
    rw [List.getD_eq_getElem?_getD, List.getD_eq_getElem?_getD, List.getElem?_set_ne (Ne.symm hk)]
  obtain ⟨pay1, pub1, i1, i2⟩ := r3Exec_stops (e := e) (p := { p with m2 := p.m2.set j bad }) j (by simpa using hj) hji
    (by rw [show ({ p with m2 := p.m2.set j bad } : Party).m2.getD j [] = bad from gj]; exact hb) (fun k hk hki => by
      obtain ⟨o, ho⟩ := hacc k (by omega) hki
      refine ⟨o, ?_⟩
      unfold Accepts at ho ⊢
      rw [show ({ p with m2 := p.m2.set j bad } : Party).m2.getD k [] = p.m2.getD k [] from gk k (by omega)]
      exact ho)
  have facts : ∃ pf : Party, r3Exec e { p with m2 := p.m2.set j bad } = (.err .parse, pf) ∧ pf.m2 = p.m2.set j bad ∧ pf.V = p.V ∧ pf.ssid = p.ssid ∧
      pf.index = p.index ∧ pf.commitedA = p.commitedA ∧ pf.tau = p.tau ∧ pf.save.privXi = p.save.privXi ∧
      pf.save.pubXj.getD p.index none = p.save.pubXj.getD p.index none ∧
      pf.srid = xorBytes p.srid (xorAll (contributions e.c { p with m2 := p.m2.set j bad } (List.range j))) :=
    ⟨_, i2, rfl, rfl, rfl, rfl, rfl, rfl, rfl, i1, rfl⟩
  obtain ⟨pf, q0, q1, q2, q3, q4, q5, q6, q7, q8, q9⟩ := facts
  have hc : contributions e.c { p with m2 := p.m2.set j bad } (List.range j) = contributions e.c p (List.range j) := by
    unfold contributions
    refine List.map_congr_left fun k hk => ?_
    have hkj := List.mem_range.1 (List.mem_filter.1 hk).1
    unfold sridOf
    rw [show ({ p with m2 := p.m2.set j bad } : Party).m2.getD k [] = p.m2.getD k [] from gk k (by omega)]
  rw [hc] at q9
  have hm : pf.m2.set j (p.m2.getD j []) = p.m2 := by
    rw [q1, List.set_set]
    refine List.ext_getElem? fun k => ?_
    by_cases hk : j = k
    · subst hk; rw [List.getElem?_set_self hj, List.getD_eq_getElem?_getD, List.getElem?_eq_getElem hj]; rfl
    · rw [List.getElem?_set_ne hk]
  have hacc2 : ∀ k, k < p.m2.length → k ≠ p.index → ∃ o, Accepts e { pf with m2 := p.m2 } k o := fun k hk hki => by
    obtain ⟨o, ho⟩ := hacc k hk hki
    refine ⟨o, ?_⟩
    unfold Accepts at ho ⊢
    show opening e.c (p.m2.getD k []) = some o ∧ o.ssid = pf.ssid ∧ commitHash e.H pf.ssid k o.srid o.X o.A o.u = pf.V.getD k []
    rw [q2, q3]
    exact ho
  obtain ⟨p2, r1, r2⟩ := r3Exec_succeeds (e := e) (q := { pf with m2 := p.m2 }) (X := X) (A := A) (tau := tau) (x := x)
    (by rw [show ({ pf with m2 := p.m2 } : Party).index = p.index from q4]; exact hacc2)
    (by rw [show ({ pf with m2 := p.m2 } : Party).index = p.index from q4]; exact q8.trans hX) (q5.trans h2) (q6.trans h3) (q7.trans h4)
  have hps : peerSrids e.c { pf with m2 := p.m2 } = contributions e.c p (List.range p.m2.length) := by
    unfold peerSrids contributions
    rw [show ({ pf with m2 := p.m2 } : Party).index = p.index from q4]
    rfl
  have hsplit : contributions e.c p (List.range p.m2.length) = contributions e.c p (List.range j) ++
      contributions e.c p ((List.range p.m2.length).filter fun k => j ≤ k) := by
    have h1 : p.m2.length = j + (p.m2.length - j) := by omega
    have h2 : ((List.range p.m2.length).filter fun k => decide (j ≤ k)) = (List.range (p.m2.length - j)).map (j + ·) := by
      conv_lhs => rw [h1, List.range_add, List.filter_append]
      rw [List.filter_eq_nil_iff.2 fun k hk => by simpa using List.mem_range.1 hk, List.nil_append, List.filter_eq_self.2]
      intro k hk
      obtain ⟨i, -, rfl⟩ := List.mem_map.1 hk
      simp
    rw [h2]
    unfold contributions
    rw [← List.map_append, ← List.filter_append, ← List.range_add, ← h1]
  have hle : (xorAll (contributions e.c p (List.range j))).length ≤ p.srid.length :=
    xorAll_length_le _ _ fun b hb => hlen b (by
      show b ∈ contributions e.c p (List.range p.m2.length)
      rw [hsplit]; exact List.mem_append.2 (.inl hb))
  refine ⟨pf, p2, X, A, tau, x, q0, h2, h3, h4, hX, ?_, ?_, sridFold_contributions e.c p _, h5⟩
  · rw [hm, r2]
    show (Res.ok (wireBytes (.kg3 (intBytes (Schnorr.Prove e.c.N tau (challenge e pf.ssid p2.srid pf.index X A) x)) [] [])), p2) = _
    rw [q3, q4]
  · rw [r1, hps, hsplit, xorAll_append, ← xorBytes_assoc]
    show xorBytes (xorBytes pf.srid _) _ = _
    rw [q9, xorBytes_cancel _ _ hle]

/-- C104, round 3, as calls: with `p` the session under `key` on whose messages round 3 would succeed, hand in an
unreadable message of peer `j`, execute round 3, hand in the right message, execute round 3 again. -/
theorem C104_round3_calls (e : Env) (r r' : Reg) (key : Bytes) (p p' : Party) (out : Bytes) (hp : r key = some p)
    (h : KeygenRound3Exec e r key = (.ok out, r')) (hp' : r' key = some p')
    (hlen : ∀ b ∈ peerSrids e.c p, b.length ≤ p.srid.length) (j : Nat) (hj : j < p.m2.length) (hji : j ≠ p.index)
    (badMsg goodMsg bad : Bytes) (hbad : b64Decode badMsg = some bad) (hb : parseWireMsg bad = none)
    (hgood : b64Decode goodMsg = some (p.m2.getD j [])) :
    ∃ r1 r2 r3 r4 p2 out2, KeygenRound2Accept r key j badMsg = (.err .parse, r1) ∧ KeygenRound3Exec e r1 key = (.err .parse, r2) ∧
      KeygenRound2Accept r2 key j goodMsg = (.ok (), r3) ∧ KeygenRound3Exec e r3 key = (.ok out2, r4) ∧ r4 key = some p2 ∧
      p'.srid = xorBytes p.srid (xorAll (contributions e.c p (List.range p.m2.length))) ∧
      p2.srid = xorBytes p.srid (xorAll (contributions e.c p ((List.range p.m2.length).filter fun k => j ≤ k))) ∧
      ∃ X A tau x, p.save.pubXj.getD p.index none = some X ∧ p.commitedA = some A ∧ p.tau = some tau ∧ p.save.privXi = some x ∧
        out = wireBytes (.kg3 (intBytes (Schnorr.Prove e.c.N tau (challenge e p.ssid p'.srid p.index X A) x)) [] []) ∧
        out2 = wireBytes (.kg3 (intBytes (Schnorr.Prove e.c.N tau (challenge e p.ssid p2.srid p.index X A) x)) [] []) := by
  unfold KeygenRound3Exec at h
  rw [withParty_some _ hp, Prod.mk.injEq] at h
  obtain ⟨ho, rfl⟩ := h
  have hp' : (r3Exec e p).2 = p' := by simpa [Reg.set] using hp'
  have hx : r3Exec e p = (.ok out, p') := Prod.ext ho hp'
  obtain ⟨pf, p2, X, A, tau, x, a1, a2, a3, a4, a5, a6, a7, a8, a9⟩ := C104_round3_retry_differs e p p' out hx hlen j hj hji bad hb
  obtain ⟨o, ho2⟩ := (r3Exec_ok hx).1 j hj hji
  obtain ⟨xx, xy, ax, ay, pn, ps, pt, hparse, -⟩ := opening_spec ho2.1
  have f1 : accept .kg2 (·.m2) (fun p l => { p with m2 := l }) j badMsg p = (.err .parse, { p with m2 := p.m2.set j bad }) := by
    unfold accept
    rw [hbad]
    simp only
    rw [if_pos ⟨by omega, by exact_mod_cast hj⟩, hb]
    rfl
  have hlen2 : pf.m2.length = p.m2.length := by
    have := congrArg Prod.snd a1
    have hm : ∀ q : Party, (r3Exec e q).2.m2.length = q.m2.length := fun q => by
      have := (Retry.forJ_inv (I := fun s : Party => s.m2.length = q.m2.length) (r3Step e) (fun s k hs => by
        unfold r3Step
        split
        · exact hs
        · split
          · exact hs
          · split
            · exact hs
            · simp only
              split
              · exact hs
              · split
                · exact hs
                · split <;> exact hs
          · exact hs) (List.range q.m2.length) (resetOK { q with number := 3 }) rfl)
      unfold r3Exec
      simp only
      rw [show (resetOK { q with number := 3 }).m2.length = q.m2.length from rfl]
      revert this
      rcases forJ (r3Step e) (List.range q.m2.length) (resetOK { q with number := 3 }) with ⟨o, s⟩
      intro hs
      cases o with
      | err er => exact hs
      | panic => exact hs
      | ok u =>
        simp only
        split <;> exact hs
    have this : pf = (r3Exec e { p with m2 := p.m2.set j bad }).2 := this.symm
    rw [this, hm]
    simp
  have f2 : accept .kg2 (·.m2) (fun p l => { p with m2 := l }) j goodMsg pf = (.ok (), { pf with m2 := pf.m2.set j (p.m2.getD j []) }) := by
    unfold accept
    rw [hgood]
    simp only
    rw [if_pos ⟨by omega, by rw [hlen2]; exact_mod_cast hj⟩, hparse]
    rfl
  have s1 : ∀ (r : Reg) (q : Party), Reg.set r key (some q) key = some q := fun r q => by simp [Reg.set]
  refine ⟨r.set key (some { p with m2 := p.m2.set j bad }), (r.set key (some { p with m2 := p.m2.set j bad })).set key (some pf),
    ((r.set key (some { p with m2 := p.m2.set j bad })).set key (some pf)).set key (some { pf with m2 := pf.m2.set j (p.m2.getD j []) }),
    (((r.set key (some { p with m2 := p.m2.set j bad })).set key (some pf)).set key
      (some { pf with m2 := pf.m2.set j (p.m2.getD j []) })).set key (some p2), p2,
    wireBytes (.kg3 (intBytes (Schnorr.Prove e.c.N tau (challenge e p.ssid p2.srid p.index X A) x)) [] []), ?_, ?_, ?_, ?_, ?_, a8, a7, X, A, tau, x,
    a5, a2, a3, a4, a9, rfl⟩
  · unfold KeygenRound2Accept
    rw [withParty_some _ hp, f1]
  · unfold KeygenRound3Exec
    rw [withParty_some _ (s1 _ _), a1]
  · unfold KeygenRound2Accept
    rw [withParty_some _ (s1 _ _), f2]
  · unfold KeygenRound3Exec
    rw [withParty_some _ (s1 _ _), a6]
  · exact s1 _ _

/-- C104, round 3: if no other party comes before the one whose message was garbled — with two parties always — the
second call returns the message that the first one would have returned. -/
theorem C104_round3_first_peer (e : Env) (p p' : Party) (out : Bytes) (h : r3Exec e p = (.ok out, p'))
    (hlen : ∀ b ∈ peerSrids e.c p, b.length ≤ p.srid.length) (j : Nat) (hj : j < p.m2.length) (hji : j ≠ p.index)
    (hfirst : ∀ k, k < j → k = p.index) (bad : Bytes) (hb : parseWireMsg bad = none) :
    ∃ pf p2, r3Exec e { p with m2 := p.m2.set j bad } = (.err .parse, pf) ∧
      r3Exec e { pf with m2 := pf.m2.set j (p.m2.getD j []) } = (.ok out, p2) ∧ p2.srid = p'.srid := by
  obtain ⟨pf, p2, X, A, tau, x, a1, a2, a3, a4, a5, a6, a7, a8, a9⟩ := C104_round3_retry_differs e p p' out h hlen j hj hji bad hb
  have hs : p2.srid = p'.srid := by
    rw [a7, a8]
    unfold contributions
    rw [List.filter_filter]
    refine congrArg (fun l => xorBytes p.srid (xorAll (List.map (sridOf e.c p) l))) (List.filter_congr fun k _ => ?_)
    by_cases hk : k = p.index
    · simp [hk]
    · have : ¬ k < j := fun h' => hk (hfirst k h')
      simp [hk]; omega
  refine ⟨pf, p2, a1, ?_, hs⟩
  rw [a6, a9, hs]

/-! ### three parties on the toy curve -/

/-- fresh party i of three, root key 7 + i -/
def tri0 (i : Nat) : Party := freshParty 3 i [⟨"0", "m_0", some [3], 0⟩, ⟨"1", "m_1", some [5], 1⟩, ⟨"2", "m_2", some [8], 2⟩] (7 + i)
/-- after round 1 -/
def tri1 (i : Nat) : Party := (r1Exec exEnv2 ⟨0, 3 + i, [1], [UInt8.ofNat (i + 5), 4]⟩ (tri0 i)).2
/-- with all round-1 messages, after round 2 -/
def tri2 (i : Nat) : Party := (r2Exec { tri1 i with m1 := [(tri1 0).m1.getD 0 [], (tri1 1).m1.getD 1 [], (tri1 2).m1.getD 2 []] }).2
/-- with all round-2 messages -/
def tri2' (i : Nat) : Party := { tri2 i with m2 := [(tri2 0).m2.getD 0 [], (tri2 1).m2.getD 1 [], (tri2 2).m2.getD 2 []] }
/-- after a failed round 3 of party 0: party 2's message was garbled; then the right one is handed in -/
def triFailed : Party := { (r3Exec exEnv2 { tri2' 0 with m2 := (tri2' 0).m2.set 2 [7] }).2 with m2 := (tri2' 0).m2 }
/-- party 1 after round 3, with the others' round-3 messages, party 0's being `m` -/
def tri3 (m : Bytes) : Party := { (r3Exec exEnv2 (tri2' 1)).2 with
  m3 := [m, (r3Exec exEnv2 (tri2' 1)).2.m3.getD 1 [], (r3Exec exEnv2 (tri2' 2)).2.m3.getD 2 []] }

/-- the hypotheses of C104_round3_retry_differs hold, the retry succeeds, with another randomness and another message -/
example : (r3Exec exEnv2 (tri2' 0)).1.isOk = true ∧ (tri2' 0).m2.length = 3 ∧ (tri2' 0).index = 0 ∧ parseWireMsg [7] = none ∧
    peerSrids toyCurve (tri2' 0) = [[6, 4], [7, 4]] ∧ (tri2' 0).srid = [5, 4] ∧
    (r3Exec exEnv2 { tri2' 0 with m2 := (tri2' 0).m2.set 2 [7] }).1 = .err .parse ∧
    (r3Exec exEnv2 triFailed).1.isOk = true ∧ (r3Exec exEnv2 (tri2' 0)).2.srid = [4, 4] ∧ (r3Exec exEnv2 triFailed).2.srid = [2, 0] ∧
    (r3Exec exEnv2 triFailed).1 ≠ (r3Exec exEnv2 (tri2' 0)).1 := by
  decide +kernel

/-- and with the retried message party 1 fails in round 4, blaming the honest party 0 -/
example : (r4Exec exEnv2 (tri3 ((r3Exec exEnv2 (tri2' 0)).2.m3.getD 0 []))).1.isOk = true ∧
    (r4Exec exEnv2 (tri3 ((r3Exec exEnv2 triFailed).2.m3.getD 0 []))).1 = .err (.schnorr 0) := by
  decide +kernel

/-- a history for C104_keygen_retry: round 2 tried too early, then again -/
example : spec.OnlyFailedTries exEnv2 [1] .two [.exec2 [1], .acc .one [1] 1 (ascii "!"), .exec2 [1]] (fun _ => some (tri1 0)) ∧
    ((Op.exec2 [1]).run exEnv2 (runOps exEnv2 [.exec2 [1], .acc .one [1] 1 (b64Encode ((tri1 1).m1.getD 1 [])),
      .acc .one [1] 2 (b64Encode ((tri1 2).m1.getD 2 []))] fun _ => some (tri1 0))).1 = .res (r2Exec { tri1 0 with
        m1 := [(tri1 0).m1.getD 0 [], (tri1 1).m1.getD 1 [], (tri1 2).m1.getD 2 []] }).1 := by
  refine ⟨⟨fun _ => .inr ⟨rfl, ?_⟩, fun _ => .inl rfl, fun _ => .inr ⟨rfl, ?_⟩, trivial⟩, by decide +kernel⟩
  · rw [show ((Op.exec2 [1]).run exEnv2 fun _ => some (tri1 0)).1 = .res (.err .parse) by decide +kernel]; trivial
  · rw [show ((Op.exec2 [1]).run exEnv2 ((Op.acc .one [1] 1 (ascii "!")).run exEnv2 ((Op.exec2 [1]).run exEnv2 fun _ => some (tri1 0)).2).2).1 =
      .res (.err .parse) by decide +kernel]; trivial

end Tss.Keygen
