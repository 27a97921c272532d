import Verif.Props.Calls
import Verif.Props.World
/-
C102 for the exported functions of the two packages.
-/
namespace Tss.Calls
open Tss

/-- The part of a registry under one key. -/
def single {P : Type} (key : Bytes) (p : P) : Bytes → Option P := fun k => if k = key then some p else none

/-- A call on an existing party as one step. -/
def atomicUse {P R : Type} (key : Bytes) (run : (Bytes → Option P) → R × (Bytes → Option P)) : Code (Option R) P R :=
  .use (run fun _ => none).1 none (fun x => (some (run (single key x.2)).1, ((run (single key x.2)).2 key).getD x.2)) []
    fun l => l.getD (run fun _ => none).1

theorem alone_atomicUse {P R : Type} (key : Bytes) (run : (Bytes → Option P) → R × (Bytes → Option P))
    (hother : ∀ r k, k ≠ key → (run r).2 k = r k)
    (hlocal : ∀ r r', r key = r' key → (run r).1 = (run r').1 ∧ (run r).2 key = (run r').2 key)
    (hnone : ∀ r, r key = none → (run r).2 key = none) (hsome : ∀ r p, r key = some p → ∃ q, (run r).2 key = some q)
    (reg : Bytes → Option P) : spec.alone ⟨key, atomicUse key run⟩ reg = run reg := by
  unfold spec.alone atomicUse
  simp only
  cases hk : reg key with
  | none =>
    simp only
    have h := hlocal (fun _ => none) reg hk.symm
    refine Prod.ext h.1 (funext fun k => ?_)
    by_cases hkk : k = key
    · subst hkk; exact hk.trans (hnone reg hk).symm
    · exact (hother reg k hkk).symm
  | some p =>
    simp only [List.foldl_cons, List.foldl_nil, Option.getD_some]
    have h := hlocal (single key p) reg (by rw [hk]; simp [single])
    refine Prod.ext h.1 (funext fun k => ?_)
    simp only
    by_cases hkk : k = key
    · subst hkk
      rw [if_pos rfl, h.2]
      obtain ⟨q, hq⟩ := hsome reg p hk
      rw [hq]; rfl
    · rw [if_neg hkk]; exact (hother reg k hkk).symm

/-- A call that creates a party or leaves the registry alone. -/
theorem alone_create {P R : Type} (key : Bytes) (run : (Bytes → Option P) → R × (Bytes → Option P))
    (h : ∃ obj ret, ∀ r, run r = (ret, Option.elim obj r fun p k => if k = key then some p else r k)) (reg : Bytes → Option P) :
    spec.alone (⟨key, .create ((run fun _ => none).2 key) (run fun _ => none).1⟩ : Call (Option R) P R) reg = run reg := by
  obtain ⟨obj, ret, h⟩ := h
  rw [h, h]
  cases obj with
  | none => rfl
  | some p => simp [spec.alone]

end Tss.Calls

namespace Tss.Keygen
open Tss Tss.Calls

namespace spec

/-- Creates or removes a party. -/
def Changes : Op → Prop
  | .new .. => True
  | .remove _ => True
  | _ => False

/-- Key-generation calls that may be made at the same time: neither creates nor removes a party, and they are for different keys, or
both deliver messages, not both the one of the same round and sender. -/
def MayOverlap (a b : Op) : Prop := ¬ Changes a ∧ ¬ Changes b ∧ (a.key ≠ b.key ∨
  ∃ rd rd' k f f' m m', a = .acc rd k f m ∧ b = .acc rd' k f' m' ∧ (rd, f) ≠ (rd', f'))

/-- `code` gives for each call a way to do it step by step: done alone it has the effect of the model's function, the calls that look a
party up once remain such calls, and a delivery touches the party once (the assignment to the slot of the sender, e.g.
eddsacmp/keygen/round_1.go:109). -/
structure Impl {L : Type} (e : Env) (code : Op → Code L Party Out) : Prop where
  alone : ∀ op reg, Calls.spec.alone ⟨op.key, code op⟩ reg = op.run e reg
  use : ∀ op, ¬ Changes op → Calls.spec.IsUse ⟨op.key, code op⟩
  accept : ∀ rd k f m, Calls.spec.Single ⟨k, code (.acc rd k f m)⟩

end spec

/-- **C102, key generation.** Calls that overlap only where `MayOverlap` says, in any interleaving of their steps: no access to `Parties`
races with a change of it, every call returns what it returns when the calls are made one after the other in the order of their returns,
and when none is in progress the parties registered are those of that history - so whatever holds of all histories holds here. -/
theorem C102_keygen {L : Type} {e : Env} {code : Op → Code L Party Out} (hc : spec.Impl e code) {ops : Nat → Op} {h0 : Nat → Party}
    {h : List (Nat × Out)} {s : St L Party Out} (hr : Run (Calls.spec.Careful Op.key code ops spec.MayOverlap) h0 h s) :
    ¬ Calls.spec.Race s ∧ ∃ reg, Calls.spec.InTurn (Op.run e) ops h reg ∧ Reach e reg ∧
      ((∀ i c, ¬ Calls.spec.Active s i c) → ∀ k, Calls.spec.view s k = reg k) := by
  obtain ⟨h1, reg, h2, h3⟩ := careful hc.alone (may := spec.MayOverlap) (by
    rintro a b ⟨ha, hb, h⟩
    refine ⟨hc.use a ha, hc.use b hb, ?_⟩
    rcases h with h | ⟨rd, rd', k, f, f', m, m', rfl, rfl, -⟩
    · exact .inl h
    · exact .inr ⟨hc.accept _ _ _ _, hc.accept _ _ _ _⟩) hr
  refine ⟨h1, reg, h2, ?_, h3⟩
  clear h1 h3 hr
  induction h2 with
  | nil => exact .init
  | @snoc h reg i r reg' _ hrun ih =>
    have := Reach.step (ops i) ih
    rw [hrun] at this
    exact this

/-- Each call in one step. -/
def atomicCode (e : Env) : Op → Code (Option Out) Party Out
  | .new k i n ids root => .create ((Op.run e (.new k i n ids root) fun _ => none).2 k) (Op.run e (.new k i n ids root) fun _ => none).1
  | .remove _ => .remove (.bool true) (.bool false)
  | op => atomicUse op.key (op.run e)

theorem withParty_stays {α : Type} (r : Reg) (key : Bytes) (f : Party → Res Err α × Party) :
    (r key = none → (withParty r key f).2 key = none) ∧ ∀ p, r key = some p → ∃ q, (withParty r key f).2 key = some q := by
  constructor
  · intro h; rw [withParty_none f h]; exact h
  · intro p h; rw [withParty_some f h]; exact ⟨_, set_same _ _ _⟩

theorem call_keeps (e : Env) (op : Op) (hop : ¬ spec.Changes op) (r : Reg) :
    (r op.key = none → (op.run e r).2 op.key = none) ∧ ∀ p, r op.key = some p → ∃ q, (op.run e r).2 op.key = some q := by
  cases op with
  | new => exact absurd trivial hop
  | remove => exact absurd trivial hop
  | acc rd k f m => cases rd <;> exact withParty_stays r k _
  | fin rd k => cases rd <;> exact withParty_stays r k _
  | _ => exact withParty_stays r _ _

theorem atomic_code (e : Env) (op : Op) (hop : ¬ spec.Changes op) : atomicCode e op = atomicUse op.key (op.run e) := by
  cases op with
  | new => exact absurd trivial hop
  | remove => exact absurd trivial hop
  | _ => rfl

theorem new_reg_form (k : Bytes) (i n : Int) (ids : List Bytes) (root : Bytes) :
    ∃ obj ret, ∀ r, NewLocalParty r k i n ids root = (ret, Option.elim obj r fun p k' => if k' = k then some p else r k') := by
  unfold NewLocalParty
  simp only
  by_cases h1 : n < 0
  · exact ⟨none, .panic, fun r => by rw [if_pos h1]; rfl⟩
  cases h2 : buildIds ids 0 n.toNat with
  | none => exact ⟨none, .panic, fun r => by rw [if_neg h1]; rfl⟩
  | some u =>
    by_cases h3 : 0 ≤ i ∧ i < (PartyID.SortPartyIDs u none).length
    · cases h4 : Text.hexDecode root with
      | none => exact ⟨none, .err .hexRoot, fun r => by rw [if_neg h1]; simp only; rw [if_pos h3]; rfl⟩
      | some x => exact ⟨some _, .ok (), fun r => by rw [if_neg h1]; simp only; rw [if_pos h3]; rfl⟩
    · exact ⟨none, .panic, fun r => by rw [if_neg h1]; simp only; rw [if_neg h3]; rfl⟩

/-- **C102.** Every call can be done in one step, so the theorem speaks about something. -/
theorem C102_keygen_impl (e : Env) : spec.Impl e (atomicCode e) where
  alone op reg := by
    by_cases hop : spec.Changes op
    · cases op with
      | new k i n ids root =>
        refine alone_create k (Op.run e (.new k i n ids root)) ?_ reg
        obtain ⟨obj, ret, h⟩ := new_reg_form k i n ids root
        refine ⟨obj, .res (noData ret), fun r => ?_⟩
        show (Out.res (noData (NewLocalParty r k i n ids root).1), (NewLocalParty r k i n ids root).2) = _
        rw [h]
      | remove k =>
        show Calls.spec.alone (⟨k, .remove (Out.bool true) (Out.bool false)⟩ : Call (Option Out) Party Out) reg = (Out.bool (RemoveParty reg k).1, (RemoveParty reg k).2)
        unfold Calls.spec.alone RemoveParty
        simp only
        cases reg k <;> rfl
      | _ => exact hop.elim
    · rw [atomic_code e op hop]
      exact alone_atomicUse op.key (op.run e) (fun r k hk => run_other e op r k hk) (fun r r' h => run_local e op r r' h)
        (fun r => (call_keeps e op hop r).1) (fun r => (call_keeps e op hop r).2) reg
  use op hop := by rw [atomic_code e op hop]; exact ⟨_, _, _, _, _, rfl⟩
  accept rd k f m := ⟨_, _, _, _, rfl⟩

end Tss.Keygen

namespace Tss.Onsign
open Tss Tss.Calls

namespace spec

/-- Creates or removes a party. -/
def Changes : Op → Prop
  | .new .. => True
  | .remove _ => True
  | _ => False

/-- The message slot a call touches: round and peer, `true` for a delivery and `false` for fetching a message to send. -/
def slot : Op → Option (Bool × Nat × Int)
  | .acc1 _ f _ => some (true, 1, f)
  | .acc2 _ f _ => some (true, 2, f)
  | .acc3 _ f _ => some (true, 3, f)
  | .get1 _ t => some (false, 1, t)
  | .get2 _ t => some (false, 2, t)
  | _ => none

/-- Signing calls that may be made at the same time: neither creates nor removes a party, and they are for different keys, or both
deliver or fetch messages, and not both deliver the message of the same round and sender. -/
def MayOverlap (a b : Op) : Prop := ¬ Changes a ∧ ¬ Changes b ∧ (a.key ≠ b.key ∨
  ∃ x y, slot a = some x ∧ slot b = some y ∧ (x = y → x.1 = false))

/-- As in key generation; deliveries and fetches touch the party once (e.g. eddsacmp/onsign/round_1.go:172-175, 145). -/
structure Impl {L : Type} (e : Env) (code : Op → Code L Party Out) : Prop where
  alone : ∀ op reg, Calls.spec.alone ⟨op.key, code op⟩ reg = op.run e reg
  use : ∀ op, ¬ Changes op → Calls.spec.IsUse ⟨op.key, code op⟩
  light : ∀ op x, slot op = some x → Calls.spec.Single ⟨op.key, code op⟩

end spec

/-- **C102, signing.** The same for the signing calls. -/
theorem C102_onsign {L : Type} {e : Env} {code : Op → Code L Party Out} (hc : spec.Impl e code) {ops : Nat → Op} {h0 : Nat → Party}
    {h : List (Nat × Out)} {s : St L Party Out} (hr : Run (Calls.spec.Careful Op.key code ops spec.MayOverlap) h0 h s) :
    ¬ Calls.spec.Race s ∧ ∃ reg, Calls.spec.InTurn (Op.run e) ops h reg ∧ Reach e reg ∧
      ((∀ i c, ¬ Calls.spec.Active s i c) → ∀ k, Calls.spec.view s k = reg k) := by
  obtain ⟨h1, reg, h2, h3⟩ := careful hc.alone (may := spec.MayOverlap) (by
    rintro a b ⟨ha, hb, h⟩
    refine ⟨hc.use a ha, hc.use b hb, ?_⟩
    rcases h with h | ⟨x, y, hx, hy, -⟩
    · exact .inl h
    · exact .inr ⟨hc.light _ _ hx, hc.light _ _ hy⟩) hr
  refine ⟨h1, reg, h2, ?_, h3⟩
  clear h1 h3 hr
  induction h2 with
  | nil => exact .init
  | @snoc h reg i r reg' _ hrun ih =>
    have := Reach.step (ops i) ih
    rw [hrun] at this
    exact this

/-- Each call in one step. -/
def atomicCode (e : Env) : Op → Code (Option Out) Party Out
  | .new k a => .create ((Op.run e (.new k a) fun _ => none).2 k) (Op.run e (.new k a) fun _ => none).1
  | .remove _ => .remove (.bool true) (.bool false)
  | op => atomicUse op.key (op.run e)

theorem withParty_stays {α : Type} (nf : Err) (r : Reg) (key : Bytes) (f : Party → Res Err α × Party) :
    (r key = none → (withParty nf r key f).2 key = none) ∧ ∀ p, r key = some p → ∃ q, (withParty nf r key f).2 key = some q := by
  constructor
  · intro h; rw [withParty_none nf f h]; exact h
  · intro p h; rw [withParty_some nf f h]; exact ⟨_, set_same _ _ _⟩

theorem call_keeps (e : Env) (op : Op) (hop : ¬ spec.Changes op) (r : Reg) :
    (r op.key = none → (op.run e r).2 op.key = none) ∧ ∀ p, r op.key = some p → ∃ q, (op.run e r).2 op.key = some q := by
  cases op with
  | new => exact absurd trivial hop
  | remove => exact absurd trivial hop
  | _ => exact withParty_stays _ r _ _

theorem atomic_code (e : Env) (op : Op) (hop : ¬ spec.Changes op) : atomicCode e op = atomicUse op.key (op.run e) := by
  cases op with
  | new => exact absurd trivial hop
  | remove => exact absurd trivial hop
  | _ => rfl

theorem new_reg_form (e : Env) (k : Bytes) (a : NewArgs) :
    ∃ obj ret, ∀ r, NewLocalParty e r k a = (ret, Option.elim obj r fun p k' => if k' = k then some p else r k') := by
  unfold NewLocalParty
  simp only
  by_cases h1 : a.partyCount < 0
  · exact ⟨none, .panic, fun r => by rw [if_pos h1]; rfl⟩
  cases h2 : Keygen.buildIds a.pIDs 0 a.partyCount.toNat with
  | none => exact ⟨none, .panic, fun r => by rw [if_neg h1]; rfl⟩
  | some u =>
    by_cases h3 : 0 ≤ a.partyIndex ∧ a.partyIndex < (PartyID.SortPartyIDs u none).length
    swap
    · exact ⟨none, .panic, fun r => by rw [if_neg h1]; simp only; rw [if_neg h3]; rfl⟩
    cases h4 : Text.b64Decode a.keyData with
    | none => exact ⟨none, .err .base64Keys, fun r => by rw [if_neg h1]; simp only; rw [if_pos h3]; rfl⟩
    | some kb =>
      cases h5 : e.jsonDec kb with
      | none => exact ⟨none, .err .json, fun r => by rw [if_neg h1]; simp only; rw [if_pos h3]; simp only [h5]; rfl⟩
      | some d =>
        cases h6 : prepareKeys e a.partyIndex.toNat a.partyCount.toNat (PartyID.SortPartyIDs u none) a.refresh a.path d with
        | err er => exact ⟨none, .err er, fun r => by rw [if_neg h1]; simp only; rw [if_pos h3]; simp only [h5, h6]; rfl⟩
        | panic => exact ⟨none, .panic, fun r => by rw [if_neg h1]; simp only; rw [if_pos h3]; simp only [h5, h6]; rfl⟩
        | ok keys =>
          cases h7 : Text.hexDecode a.msg with
          | none => exact ⟨none, .err .hexMsg, fun r => by rw [if_neg h1]; simp only; rw [if_pos h3]; simp only [h5, h6]; rfl⟩
          | some x => exact ⟨some _, .ok (), fun r => by rw [if_neg h1]; simp only; rw [if_pos h3]; simp only [h5, h6]; rfl⟩

/-- **C102.** Every call can be done in one step, so the theorem speaks about something. -/
theorem C102_onsign_impl (e : Env) : spec.Impl e (atomicCode e) where
  alone op reg := by
    by_cases hop : spec.Changes op
    · cases op with
      | new k a =>
        refine alone_create k (Op.run e (.new k a)) ?_ reg
        obtain ⟨obj, ret, h⟩ := new_reg_form e k a
        refine ⟨obj, .res (noData ret), fun r => ?_⟩
        show (Out.res (noData (NewLocalParty e r k a).1), (NewLocalParty e r k a).2) = _
        rw [h]
      | remove k =>
        show Calls.spec.alone (⟨k, .remove (Out.bool true) (Out.bool false)⟩ : Call (Option Out) Party Out) reg =
          (Out.bool (RemoveSignParty reg k).1, (RemoveSignParty reg k).2)
        unfold Calls.spec.alone RemoveSignParty
        simp only
        cases reg k <;> rfl
      | _ => exact hop.elim
    · rw [atomic_code e op hop]
      exact alone_atomicUse op.key (op.run e) (fun r k hk => run_other e op r k hk) (fun r r' h => run_local e op r r' h)
        (fun r => (call_keeps e op hop r).1) (fun r => (call_keeps e op hop r).2) reg
  use op hop := by rw [atomic_code e op hop]; exact ⟨_, _, _, _, _, rfl⟩
  light op x hx := by
    have hop : ¬ spec.Changes op := by
      intro h
      cases op with
      | new => cases hx
      | remove => cases hx
      | _ => exact h.elim
    rw [atomic_code e op hop]
    exact ⟨_, _, _, _, rfl⟩

end Tss.Onsign

namespace Tss.Calls
open Tss

/-- **C102, example.** Calls do overlap in such runs: after any careful run with nothing in progress, two calls that may overlap can both be
in progress. -/
theorem C102_overlap_example {L P R Op : Type} {key : Op → Bytes} {code : Op → Code L P R} {ops : Nat → Op} {may : Op → Op → Prop} {h0 : Nat → P}
    {h : List (Nat × R)} {s : St L P R} (hr : Run (spec.Careful key code ops may) h0 h s) (hn : ∀ i c, ¬ spec.Active s i c)
    (i j : Nat) (hij : i ≠ j) (hi : s.thr i = none) (hj : s.thr j = none) (hm : may (ops j) (ops i)) :
    ∃ s', Run (spec.Careful key code ops may) h0 h s' ∧ spec.Active s' i ⟨key (ops i), code (ops i)⟩ ∧ spec.Active s' j ⟨key (ops j), code (ops j)⟩ := by
  have r1 : Run _ h0 h (s.put i ⟨key (ops i), code (ops i)⟩ .ready) := .call i _ hr hi ⟨rfl, fun a c ha => absurd ha (hn a c)⟩
  have r2 := Run.call j ⟨key (ops j), code (ops j)⟩ r1 (by rw [put_other _ _ _ (Ne.symm hij)]; exact hj) ⟨rfl, by
    rintro a c ⟨pc, h1, h2⟩
    by_cases hai : a = i
    · subst hai; exact hm
    · rw [put_other _ _ _ hai] at h1; exact absurd ⟨pc, h1, h2⟩ (hn a c)⟩
  exact ⟨_, r2, ⟨.ready, by rw [put_other _ _ _ hij, put_self], by intro r h; cases h⟩, .ready, put_self _ _ _ _, by intro r h; cases h⟩

/-- **C102, deviation.** Two calls that remove the same party at the same time can both report that they removed it: both look it
up before either deletes it. -/
theorem C102_removed_twice {L P R : Type} {h0 : Nat → P} {h : List (Nat × R)} {s : St L P R} (hr : Run (fun _ _ _ => True) h0 h s) (hnr : ∀ i c pc, s.thr i = some (c, pc) → ∃ r, pc = .done r)
    (i j : Nat) (hij : i ≠ j) (hi : s.thr i = none) (hj : s.thr j = none) (k : Bytes) (ref : Nat) (hk : s.map k = some ref) (y n : R) :
    ∃ s' : St L P R, Run (fun _ _ _ => True) h0 (h ++ [(i, y)] ++ [(j, y)]) s' ∧ ¬ spec.Race s' ∧ s'.map k = none ∧
      s'.thr i = some (⟨k, .remove y n⟩, .done y) ∧ s'.thr j = some (⟨k, .remove y n⟩, .done y) := by
  have hji : j ≠ i := Ne.symm hij
  have r1 := Run.call i ⟨k, .remove y n⟩ hr hi trivial
  have r2 := Run.call j ⟨k, .remove y n⟩ r1 (by rw [put_other _ _ _ hji]; exact hj) trivial
  have r3 := Run.step i r2 (.lookupR (by rw [put_other _ _ _ hij, put_self]))
  have r4 := Run.step i r3 (.present (by rw [put_self]) hk)
  have r5 := Run.step j r4 (.lookupR (by rw [put_other _ _ _ hji, put_other _ _ _ hji, put_self]))
  have r6 := Run.step j r5 (.present (by rw [put_self]) hk)
  have r7 := Run.step i r6 (.delete (by rw [put_other _ _ _ hij, put_other _ _ _ hij, put_self]))
  have r8 := Run.ret i r7 (.deleted (by rw [put_self]))
  have t8 : ∀ (s : St L P R) (pc : Pc L P R), ((((s.put j ⟨k, .remove y n⟩ .found).put i ⟨k, .remove y n⟩ pc).assign k none).put i ⟨k, .remove y n⟩ (.done y)).thr j =
      some (⟨k, .remove y n⟩, .found) := by
    intro s pc
    rw [put_other _ _ _ hji]
    show ((s.put j ⟨k, .remove y n⟩ .found).put i ⟨k, .remove y n⟩ pc).thr j = _
    rw [put_other _ _ _ hji, put_self]
  have r9 := Run.step j r8 (.delete (t8 _ _))
  have r10 := Run.ret j r9 (.deleted (put_self _ _ _ _))
  refine ⟨_, r10, ?_, ?_, ?_, put_self _ _ _ _⟩
  · rintro ⟨a, b, ca, cb, pb, -, ha, -⟩
    by_cases haj : a = j
    · subst haj; rw [put_self] at ha; injection ha with ha; injection ha with _ ha; cases ha
    · rw [put_other _ _ _ haj] at ha
      by_cases hai : a = i
      · subst hai
        simp only [St.put, St.assign, haj, if_false, if_true] at ha
        injection ha with ha; injection ha with _ ha; cases ha
      · simp only [St.put, St.assign, haj, hai, if_false] at ha
        obtain ⟨r, hr⟩ := hnr _ _ _ ha
        cases hr
  · simp [St.put, St.assign]
  · simp [St.put, St.assign, hij]

end Tss.Calls
