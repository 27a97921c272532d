import Verif.Model.Party
import Mathlib.Tactic.Common
/-! C62: the shared driver of a party (BaseStart, BaseUpdate, WaitingFor), under every interleaving of calls. -/
namespace Tss.Party
open Tss
variable {σ ε ρ μ : Type}

/-! ### Specification -/

/-- How one stay inside the mutex ends: the call returns, BaseUpdate runs again for the same message, or the implementation
panicked. -/
inductive spec.Exit (ε ρ : Type) where
  | ret (r : Ret ε ρ)
  | again
  | crash

/-- What one stay inside the mutex may do to the party, in the words of the interface documentation. -/
inductive spec.Seg (env : Env σ ε ρ μ) : Call σ ε ρ μ → PS σ ρ → spec.Exit ε ρ → PS σ ρ → Prop
  -- Start
  | badID {pr ps} : env.idOk = false → Seg env (.start pr) ps (.ret (.start (some (.own .invalidID ps.rnd)))) ps
  | running {pr r d} : env.idOk = true →
      Seg env (.start pr) ⟨some r, d⟩ (.ret (.start (some (.own .unexpectedState (some r))))) ⟨some r, d⟩
  | tooMany {pr d r d'} : env.idOk = true → 1 < pr.length → env.first d = (r, d') →
      Seg env (.start pr) ⟨none, d⟩ (.ret (.start (some (.own .tooManyPrepare r)))) ⟨r, d'⟩
  | prepareErr {f d r d1 e d2} : env.idOk = true → env.first d = (r, d1) → f r d1 = .err e d2 →
      Seg env (.start [f]) ⟨none, d⟩ (.ret (.start (some (.given e)))) ⟨r, d2⟩
  | preparePanic {f d r d1 d2} : env.idOk = true → env.first d = (r, d1) → f r d1 = .panic d2 →
      Seg env (.start [f]) ⟨none, d⟩ .crash ⟨r, d2⟩
  | noRound {pr d d1 d2} : env.idOk = true → env.first d = (none, d1) →
      (pr = [] ∧ d2 = d1 ∨ ∃ f, pr = [f] ∧ f none d1 = .ok () d2) →
      Seg env (.start pr) ⟨none, d⟩ .crash ⟨none, d2⟩
  | started {pr d r d1 d2 d3} : env.idOk = true → env.first d = (some r, d1) →
      (pr = [] ∧ d2 = d1 ∨ ∃ f, pr = [f] ∧ f (some r) d1 = .ok () d2) → env.start r d2 = .ok () d3 →
      Seg env (.start pr) ⟨none, d⟩ (.ret (.start none)) ⟨some r, d3⟩
  | startErr {pr d r d1 d2 e d3} : env.idOk = true → env.first d = (some r, d1) →
      (pr = [] ∧ d2 = d1 ∨ ∃ f, pr = [f] ∧ f (some r) d1 = .ok () d2) → env.start r d2 = .err e d3 →
      Seg env (.start pr) ⟨none, d⟩ (.ret (.start (some (.given e)))) ⟨some r, d3⟩
  | startPanic {pr d r d1 d2 d3} : env.idOk = true → env.first d = (some r, d1) →
      (pr = [] ∧ d2 = d1 ∨ ∃ f, pr = [f] ∧ f (some r) d1 = .ok () d2) → env.start r d2 = .panic d3 →
      Seg env (.start pr) ⟨none, d⟩ .crash ⟨some r, d3⟩
  -- Update
  | storeErr {m r d e d'} : env.valid m = true → env.store m d = .err e d' →
      Seg env (.update m) ⟨r, d⟩ (.ret (.update false (some (.given e)))) ⟨r, d'⟩
  | storeNo {m r d d'} : env.valid m = true → env.store m d = .ok false d' →
      Seg env (.update m) ⟨r, d⟩ (.ret (.update false none)) ⟨r, d'⟩
  | storePanic {m r d d'} : env.valid m = true → env.store m d = .panic d' → Seg env (.update m) ⟨r, d⟩ .crash ⟨r, d'⟩
  | idle {m d d'} : env.valid m = true → env.store m d = .ok true d' →
      Seg env (.update m) ⟨none, d⟩ (.ret (.update true none)) ⟨none, d'⟩
  | updateErr {m r d d1 e d2} : env.valid m = true → env.store m d = .ok true d1 → env.update r d1 = .err e d2 →
      Seg env (.update m) ⟨some r, d⟩ (.ret (.update false (some (.given e)))) ⟨some r, d2⟩
  | updatePanic {m r d d1 d2} : env.valid m = true → env.store m d = .ok true d1 → env.update r d1 = .panic d2 →
      Seg env (.update m) ⟨some r, d⟩ .crash ⟨some r, d2⟩
  | wait {m r d d1 b d2} : env.valid m = true → env.store m d = .ok true d1 → env.update r d1 = .ok b d2 →
      env.can r d2 = false → Seg env (.update m) ⟨some r, d⟩ (.ret (.update true none)) ⟨some r, d2⟩
  | finish {m r d d1 b d2 d3} : env.valid m = true → env.store m d = .ok true d1 → env.update r d1 = .ok b d2 →
      env.can r d2 = true → env.next r d2 = (none, d3) → Seg env (.update m) ⟨some r, d⟩ .again ⟨none, d3⟩
  | advance {m r d d1 b d2 r' d3 d4} : env.valid m = true → env.store m d = .ok true d1 → env.update r d1 = .ok b d2 →
      env.can r d2 = true → env.next r d2 = (some r', d3) → env.start r' d3 = .ok () d4 →
      Seg env (.update m) ⟨some r, d⟩ .again ⟨some r', d4⟩
  | advanceErr {m r d d1 b d2 r' d3 e d4} : env.valid m = true → env.store m d = .ok true d1 → env.update r d1 = .ok b d2 →
      env.can r d2 = true → env.next r d2 = (some r', d3) → env.start r' d3 = .err e d4 →
      Seg env (.update m) ⟨some r, d⟩ (.ret (.update false (some (.given e)))) ⟨some r', d4⟩
  | advancePanic {m r d d1 b d2 r' d3 d4} : env.valid m = true → env.store m d = .ok true d1 → env.update r d1 = .ok b d2 →
      env.can r d2 = true → env.next r d2 = (some r', d3) → env.start r' d3 = .panic d4 →
      Seg env (.update m) ⟨some r, d⟩ .crash ⟨some r', d4⟩
  -- WaitingFor
  | noneWaiting {d} : Seg env .waitingFor ⟨none, d⟩ (.ret (.waitingFor [])) ⟨none, d⟩
  | waiting {r d l} : env.waiting r d = some l → Seg env .waitingFor ⟨some r, d⟩ (.ret (.waitingFor l)) ⟨some r, d⟩
  | waitingPanic {r d} : env.waiting r d = none → Seg env .waitingFor ⟨some r, d⟩ .crash ⟨some r, d⟩

/-- A sequence of such stays, one after the other; each entry names the call (by number), and how the stay ended. -/
inductive spec.Serial (env : Env σ ε ρ μ) (calls : Nat → Option (Call σ ε ρ μ)) :
    PS σ ρ → List (Nat × spec.Exit ε ρ) → PS σ ρ → Prop
  | nil {a} : Serial env calls a [] a
  | snoc {a h b i c x d} : Serial env calls a h b → calls i = some c → spec.Seg env c b x d →
      Serial env calls a (h ++ [(i, x)]) d

/-- The calls made so far. -/
def spec.calls (s : St σ ε ρ μ) (i : Nat) : Option (Call σ ε ρ μ) := (s.thr i).map (·.1)

/-- A call is between `lock` and `unlock`. -/
def spec.Inside (s : St σ ε ρ μ) (i : Nat) : Prop := ∃ c l, s.thr i = some (c, .body l)

/-- A BaseUpdate call panicked. -/
def spec.LeakedBy (s : St σ ε ρ μ) (i : Nat) : Prop := ∃ m, s.thr i = some (.update m, .crashed)

/-! ### Proofs -/

/-- What the code has done since it took the mutex in state `a`, when it is at place `l` in state `b`. -/
inductive Mid (env : Env σ ε ρ μ) : Call σ ε ρ μ → PS σ ρ → Loc → PS σ ρ → Prop
  | sCheck {pr a} : Mid env (.start pr) a .sCheck a
  | sPrepare {f d r d1} : env.idOk = true → env.first d = (r, d1) → Mid env (.start [f]) ⟨none, d⟩ .sPrepare ⟨r, d1⟩
  | sRun {pr d r d1 d2} : env.idOk = true → env.first d = (r, d1) →
      (pr = [] ∧ d2 = d1 ∨ ∃ f, pr = [f] ∧ f r d1 = .ok () d2) → Mid env (.start pr) ⟨none, d⟩ .sRun ⟨r, d2⟩
  | uStore {m a} : env.valid m = true → Mid env (.update m) a .uStore a
  | uUpdate {m r d d1} : env.valid m = true → env.store m d = .ok true d1 → Mid env (.update m) ⟨r, d⟩ .uUpdate ⟨r, d1⟩
  | uCan {m r d d1 b d2} : env.valid m = true → env.store m d = .ok true d1 → env.update r d1 = .ok b d2 →
      Mid env (.update m) ⟨some r, d⟩ .uCan ⟨some r, d2⟩
  | uNext {m r d d1 b d2} : env.valid m = true → env.store m d = .ok true d1 → env.update r d1 = .ok b d2 →
      env.can r d2 = true → Mid env (.update m) ⟨some r, d⟩ .uNext ⟨some r, d2⟩
  | uStart {m r d d1 b d2 r' d3} : env.valid m = true → env.store m d = .ok true d1 → env.update r d1 = .ok b d2 →
      env.can r d2 = true → env.next r d2 = (some r', d3) → Mid env (.update m) ⟨some r, d⟩ .uStart ⟨some r', d3⟩
  | wRead {a} : Mid env .waitingFor a .wRead a

/-- One step inside the mutex either goes on as `Mid` says, or completes a stay allowed by the specification. -/
theorem mid_micro {env : Env σ ε ρ μ} {c : Call σ ε ρ μ} {a b : PS σ ρ} {l : Loc} (h : Mid env c a l b) :
    match micro env c l b with
    | (.go l', b') => Mid env c a l' b'
    | (.ret r, b') => spec.Seg env c a (.ret r) b'
    | (.again, b') => spec.Seg env c a .again b' ∧ ∃ m, c = .update m
    | (.crash, b') => spec.Seg env c a .crash b' := by
  cases h with
  | @sCheck pr =>
    obtain ⟨rnd, d⟩ := a
    simp only [micro, sCheck]
    cases hid : env.idOk with
    | false => exact .badID hid
    | true =>
      cases rnd with
      | some r => exact .running hid
      | none =>
        simp only [Bool.not_true, Bool.false_eq_true, if_false, Option.isSome_none, setRound]
        by_cases h1 : 1 < pr.length
        · rw [if_pos h1]; exact .tooMany hid h1 rfl
        · rw [if_neg h1]
          by_cases h2 : pr.length = 1
          · rw [if_pos h2]
            obtain ⟨f, rfl⟩ := List.length_eq_one_iff.mp h2
            exact .sPrepare hid rfl
          · rw [if_neg h2]
            have : pr = [] := List.length_eq_zero_iff.mp (by omega)
            exact .sRun hid rfl (.inl ⟨this, rfl⟩)
  | @sPrepare f d r d1 hid hf =>
    simp only [micro, sPrepare]
    cases hp : f r d1 with
    | ok u d2 => exact .sRun hid hf (.inr ⟨f, rfl, hp⟩)
    | err e d2 => exact .prepareErr hid hf hp
    | panic d2 => exact .preparePanic hid hf hp
  | @sRun pr d r d1 d2 hid hf hpr =>
    simp only [micro, sRun]
    cases r with
    | none => exact .noRound hid hf hpr
    | some r =>
      simp only
      cases hs : env.start r d2 with
      | ok u d3 => exact .started hid hf hpr hs
      | err e d3 => exact .startErr hid hf hpr hs
      | panic d3 => exact .startPanic hid hf hpr hs
  | uStore hv =>
    rename_i m
    obtain ⟨rnd, d⟩ := a
    simp only [micro, uStore]
    cases hs : env.store m d with
    | ok b d1 =>
      cases b with
      | true => exact .uUpdate hv hs
      | false => exact .storeNo hv hs
    | err e d1 => exact .storeErr hv hs
    | panic d1 => exact .storePanic hv hs
  | @uUpdate m r d d1 hv hs =>
    simp only [micro, uUpdate]
    cases r with
    | none => exact .idle hv hs
    | some r =>
      simp only
      cases hu : env.update r d1 with
      | ok b d2 => exact .uCan hv hs hu
      | err e d2 => exact .updateErr hv hs hu
      | panic d2 => exact .updatePanic hv hs hu
  | @uCan m r d d1 b d2 hv hs hu =>
    simp only [micro, uCan]
    cases hc : env.can r d2 with
    | true => exact .uNext hv hs hu hc
    | false => exact .wait hv hs hu hc
  | @uNext m r d d1 b d2 hv hs hu hc =>
    rcases hn : env.next r d2 with ⟨r', d3⟩
    simp only [micro, uNext, hn]
    cases r' with
    | none => exact ⟨.finish hv hs hu hc hn, m, rfl⟩
    | some r' => exact .uStart hv hs hu hc hn
  | @uStart m r d d1 b d2 r' d3 hv hs hu hc hn =>
    simp only [micro, uStart]
    cases ht : env.start r' d3 with
    | ok u d4 => exact ⟨.advance hv hs hu hc hn ht, m, rfl⟩
    | err e d4 => exact .advanceErr hv hs hu hc hn ht
    | panic d4 => exact .advancePanic hv hs hu hc hn ht
  | wRead =>
    obtain ⟨rnd, d⟩ := a
    simp only [micro, wRead]
    cases rnd with
    | none => exact .noneWaiting
    | some r =>
      simp only
      cases hw : env.waiting r d with
      | none => exact .waitingPanic hw
      | some l => exact .waiting hw

theorem mid_first {env : Env σ ε ρ μ} {c : Call σ ε ρ μ} {a : PS σ ρ} (h : ∀ m, c = .update m → env.valid m = true) :
    Mid env c a (firstLoc c) a := by
  cases c with
  | start pr => exact .sCheck
  | update m => exact .uStore (h m rfl)
  | waitingFor => exact .wRead

/-- The invariant of every interleaving. -/
structure Inv (env : Env σ ε ρ μ) (d0 : σ) (s : St σ ε ρ μ) (h : List (Nat × spec.Exit ε ρ)) : Prop where
  /-- the party's state -/
  ser : ∃ a, spec.Serial env (spec.calls s) ⟨none, d0⟩ h a ∧ ((¬ ∃ i, spec.Inside s i) → a = s.ps) ∧
    ∀ i c l, s.thr i = some (c, .body l) → Mid env c a l s.ps
  /-- a call waiting for the mutex has a good message -/
  acq : ∀ i m, s.thr i = some (.update m, .acquire) → env.valid m = true
  val : ∀ i c, s.thr i = some (c, .validate) → ∃ m, c = .update m
  /-- what has been returned is in the history, or refused by ValidateMessage -/
  ret : ∀ i c r, s.thr i = some (c, .returned r) →
    (i, spec.Exit.ret r) ∈ h ∨ ∃ m x, c = .update m ∧ env.valid m = false ∧ r = .update false (some (.own .invalidMessage x))
  /-- and conversely -/
  hist : ∀ i x, (i, x) ∈ h → ∀ r, x = spec.Exit.ret r → ∃ c, s.thr i = some (c, .returned r)

theorem serial_mono {env : Env σ ε ρ μ} {f g : Nat → Option (Call σ ε ρ μ)} (hfg : ∀ i c, f i = some c → g i = some c)
    {a b : PS σ ρ} {h : List (Nat × spec.Exit ε ρ)} (hs : spec.Serial env f a h b) : spec.Serial env g a h b := by
  induction hs with
  | nil => exact .nil
  | snoc _ hc hseg ih => exact .snoc ih (hfg _ _ hc) hseg

theorem put_same (s : St σ ε ρ μ) (i : Nat) (c : Call σ ε ρ μ) (pc : Pc ε ρ) : s.put i c pc i = some (c, pc) := by simp [St.put]

theorem put_other (s : St σ ε ρ μ) {i j : Nat} (c : Call σ ε ρ μ) (pc : Pc ε ρ) (h : j ≠ i) : s.put i c pc j = s.thr j := by
  simp [St.put, h]

/-- Does a place count as holding the mutex? -/
def holds (c : Call σ ε ρ μ) : Pc ε ρ → Bool
  | .body _ => true
  | .crashed => !defers c
  | _ => false

theorem held_iff (s : St σ ε ρ μ) (i : Nat) :
    (spec.Inside s i ∨ spec.LeakedBy s i) ↔ ∃ c pc, s.thr i = some (c, pc) ∧ holds c pc = true := by
  constructor
  · rintro (⟨c, l, h⟩ | ⟨m, h⟩)
    · exact ⟨c, _, h, rfl⟩
    · exact ⟨_, _, h, rfl⟩
  · rintro ⟨c, pc, h, hh⟩
    cases pc with
    | body l => exact .inl ⟨c, l, h⟩
    | crashed =>
      cases c with
      | update m => exact .inr ⟨m, h⟩
      | start pr => simp [holds, defers] at hh
      | waitingFor => simp [holds, defers] at hh
    | validate => simp [holds] at hh
    | acquire => simp [holds] at hh
    | returned r => simp [holds] at hh

/-- The mutex part of the invariant. -/
structure LockInv (s : St σ ε ρ μ) : Prop where
  lock : s.locked = true ↔ ∃ i c pc, s.thr i = some (c, pc) ∧ holds c pc = true
  one : ∀ i j c pc c' pc', s.thr i = some (c, pc) → holds c pc = true → s.thr j = some (c', pc') → holds c' pc' = true → i = j

/-- A step of a call outside the mutex, to a place outside the mutex. -/
theorem LockInv.out {s : St σ ε ρ μ} (h : LockInv s) {i : Nat} {c : Call σ ε ρ μ} {pc' : Pc ε ρ}
    (hold : ∀ c pc, s.thr i = some (c, pc) → holds c pc = false) (hnew : holds c pc' = false) :
    LockInv { s with thr := s.put i c pc' } := by
  have key : ∀ j c₁ pc₁, s.put i c pc' j = some (c₁, pc₁) ∧ holds c₁ pc₁ = true ↔ s.thr j = some (c₁, pc₁) ∧ holds c₁ pc₁ = true := by
    intro j c₁ pc₁
    by_cases hj : j = i
    · subst hj
      rw [put_same]
      constructor
      · rintro ⟨h1, h2⟩
        cases h1; rw [hnew] at h2; cases h2
      · rintro ⟨h1, h2⟩
        rw [hold _ _ h1] at h2; cases h2
    · rw [put_other _ _ _ hj]
  constructor
  · simp only [key]; exact h.lock
  · intro i' j c₁ pc₁ c₂ pc₂ h1 h2 h3 h4
    exact h.one i' j c₁ pc₁ c₂ pc₂ ((key _ _ _).mp ⟨h1, h2⟩).1 h2 ((key _ _ _).mp ⟨h3, h4⟩).1 h4

/-- A step of the call that holds the mutex. -/
theorem LockInv.inner {s : St σ ε ρ μ} (h : LockInv s) {i : Nat} {c : Call σ ε ρ μ} {l : Loc} (hi : s.thr i = some (c, .body l))
    (x : After ε ρ × PS σ ρ) : LockInv (settle s i c x) := by
  have hlk : s.locked = true := h.lock.mpr ⟨i, c, _, hi, rfl⟩
  have others : ∀ j c' pc', j ≠ i → s.thr j = some (c', pc') → holds c' pc' = false := by
    intro j c' pc' hj hj'
    by_contra hh
    exact hj (h.one j i c' pc' c _ hj' (by simpa using hh) hi rfl)
  have gen : ∀ (ps : PS σ ρ) (b : Bool) (pc : Pc ε ρ), (b = holds c pc) → LockInv ⟨ps, b, s.put i c pc⟩ := by
    intro ps b pc hb
    constructor
    · simp only
      constructor
      · intro hbt; exact ⟨i, c, pc, put_same .., by rw [← hb, hbt]⟩
      · rintro ⟨j, c', pc', h1, h2⟩
        by_cases hj : j = i
        · subst hj; rw [put_same] at h1; cases h1; rw [hb, h2]
        · rw [put_other _ _ _ hj] at h1; rw [others _ _ _ hj h1] at h2; cases h2
    · intro a b' c₁ pc₁ c₂ pc₂ h1 h2 h3 h4
      have z : ∀ k c' pc', s.put i c pc k = some (c', pc') → holds c' pc' = true → k = i := by
        intro k c' pc' g1 g2
        by_contra hk
        rw [put_other _ _ _ hk] at g1; rw [others _ _ _ hk g1] at g2; cases g2
      rw [z _ _ _ h1 h2, z _ _ _ h3 h4]
  obtain ⟨x, ps⟩ := x
  cases x with
  | go l' => exact gen _ _ _ (by rw [hlk]; rfl)
  | ret r => exact gen _ _ _ rfl
  | again => exact gen _ _ _ rfl
  | crash =>
    refine gen _ _ _ ?_
    cases hd : defers c
    · simp [holds, hd, hlk]
    · simp [holds, hd]

theorem lock_step {env : Env σ ε ρ μ} {s t : St σ ε ρ μ} (h : LockInv s) (st : Step env s t) : LockInv t := by
  cases st with
  | call c hn =>
    refine h.out (by intro c pc hc; rw [hn] at hc; cases hc) ?_
    cases c <;> rfl
  | good hv _ =>
    refine h.out ?_ rfl
    intro c pc hc; rw [hv] at hc; cases hc; rfl
  | bad hv _ =>
    refine h.out ?_ rfl
    intro c pc hc; rw [hv] at hc; cases hc; rfl
  | @acquire i c ha hf =>
    have none_holds : ∀ j c' pc', s.thr j = some (c', pc') → holds c' pc' = false := by
      intro j c' pc' hj
      by_contra hh
      have := h.lock.mpr ⟨j, c', pc', hj, by simpa using hh⟩
      rw [hf] at this; cases this
    have z : ∀ k c' pc', s.put i c (.body (firstLoc c)) k = some (c', pc') → holds c' pc' = true → k = i := by
      intro k c' pc' g1 g2
      by_contra hk
      rw [put_other _ _ _ hk] at g1; rw [none_holds _ _ _ g1] at g2; cases g2
    exact ⟨⟨fun _ => ⟨i, c, _, put_same .., rfl⟩, fun _ => rfl⟩,
      fun a b c₁ pc₁ c₂ pc₂ h1 h2 h3 h4 => by rw [z _ _ _ h1 h2, z _ _ _ h3 h4]⟩
  | body hi => exact h.inner hi _

theorem lock_init (d : σ) : LockInv (init d : St σ ε ρ μ) :=
  ⟨by simp [init], by simp [init]⟩

theorem lock_run {env : Env σ ε ρ μ} {d : σ} {s : St σ ε ρ μ} (h : Run env (init d) s) : LockInv s := by
  generalize hi : init d = i at h
  induction h with
  | refl => subst hi; exact lock_init d
  | tail _ st ih => subst hi; exact lock_step ih st

/-- A step of a call that stays outside the mutex. -/
theorem Inv.out {env : Env σ ε ρ μ} {d0 : σ} {s : St σ ε ρ μ} {h : List (Nat × spec.Exit ε ρ)} (hi : Inv env d0 s h) {i : Nat}
    {c : Call σ ε ρ μ} {pc' : Pc ε ρ} (hcall : ∀ c₀ pc₀, s.thr i = some (c₀, pc₀) → c₀ = c)
    (hnb : ∀ c l, s.thr i ≠ some (c, .body l)) (hnr : ∀ c r, s.thr i ≠ some (c, .returned r))
    (nb : ∀ l, pc' ≠ .body l) (acq : pc' = .acquire → ∀ m, c = .update m → env.valid m = true)
    (val : pc' = .validate → ∃ m, c = .update m)
    (ret : ∀ r, pc' = .returned r → ∃ m x, c = .update m ∧ env.valid m = false ∧ r = .update false (some (.own .invalidMessage x))) :
    Inv env d0 { s with thr := s.put i c pc' } h := by
  have bodies : ∀ j c₁ l, s.put i c pc' j = some (c₁, .body l) ↔ s.thr j = some (c₁, .body l) := by
    intro j c₁ l
    by_cases hj : j = i
    · subst hj; rw [put_same]
      constructor
      · intro e; cases e; exact absurd rfl (nb l)
      · intro e; exact absurd e (hnb _ _)
    · rw [put_other _ _ _ hj]
  have inside : ∀ j, spec.Inside { s with thr := s.put i c pc' } j ↔ spec.Inside s j := by
    intro j; unfold spec.Inside; simp only [bodies]
  have mono : ∀ j c₁, spec.calls s j = some c₁ → spec.calls { s with thr := s.put i c pc' } j = some c₁ := by
    intro j c₁ hj
    unfold spec.calls at hj ⊢
    by_cases e : j = i
    · subst e
      simp only [put_same]
      rw [Option.map_eq_some_iff] at hj
      obtain ⟨⟨c₀, pc₀⟩, h1, h2⟩ := hj
      simp only at h2
      rw [← h2, hcall _ _ h1]; rfl
    · simp only [put_other _ _ _ e]; exact hj
  refine ⟨?_, ?_, ?_, ?_, ?_⟩
  · obtain ⟨a, h1, h2, h3⟩ := hi.ser
    refine ⟨a, serial_mono mono h1, ?_, ?_⟩
    · intro hn; apply h2; simpa only [inside] using hn
    · intro j c₁ l hj; exact h3 j c₁ l ((bodies _ _ _).mp hj)
  · intro j m hj
    by_cases e : j = i
    · subst e; simp only [put_same] at hj; cases hj; exact acq rfl m rfl
    · simp only [put_other _ _ _ e] at hj; exact hi.acq j m hj
  · intro j c₁ hj
    by_cases e : j = i
    · subst e; simp only [put_same] at hj; cases hj; exact val rfl
    · simp only [put_other _ _ _ e] at hj; exact hi.val j c₁ hj
  · intro j c₁ r hj
    by_cases e : j = i
    · subst e; simp only [put_same] at hj; cases hj; exact .inr (ret r rfl)
    · simp only [put_other _ _ _ e] at hj; exact hi.ret j c₁ r hj
  · intro j x hx r hr
    obtain ⟨c₁, hc₁⟩ := hi.hist j x hx r hr
    refine ⟨c₁, ?_⟩
    have e : j ≠ i := by rintro rfl; exact hnr _ _ hc₁
    simp only [put_other _ _ _ e]; exact hc₁

/-- A call leaves the mutex. -/
theorem Inv.leave {env : Env σ ε ρ μ} {d0 : σ} {s : St σ ε ρ μ} {h : List (Nat × spec.Exit ε ρ)} (hl : LockInv s)
    (hi : Inv env d0 s h) {i : Nat} {c : Call σ ε ρ μ} {l : Loc} (hb : s.thr i = some (c, .body l)) {ps : PS σ ρ} {lk : Bool}
    {pc' : Pc ε ρ} {x : spec.Exit ε ρ} (hseg : ∀ a, Mid env c a l s.ps → spec.Seg env c a x ps) (nb : ∀ l, pc' ≠ .body l)
    (na : pc' ≠ .acquire) (nv : pc' = .validate → ∃ m, c = .update m) (hret : ∀ r, pc' = .returned r ↔ x = .ret r) :
    Inv env d0 ⟨ps, lk, s.put i c pc'⟩ (h ++ [(i, x)]) := by
  have nobody : ∀ j c₁ l', s.put i c pc' j ≠ some (c₁, .body l') := by
    intro j c₁ l' hj
    by_cases e : j = i
    · subst e; rw [put_same] at hj; cases hj; exact nb l' rfl
    · rw [put_other _ _ _ e] at hj; exact e (hl.one _ _ _ _ _ _ hj rfl hb rfl)
  obtain ⟨a, h1, h2, h3⟩ := hi.ser
  have mono : ∀ j c₁, spec.calls s j = some c₁ → spec.calls ⟨ps, lk, s.put i c pc'⟩ j = some c₁ := by
    intro j c₁ hj
    unfold spec.calls at hj ⊢
    by_cases e : j = i
    · subst e
      rw [hb] at hj
      simp only [put_same]; exact hj
    · simp only [put_other _ _ _ e]; exact hj
  refine ⟨⟨ps, .snoc (serial_mono mono h1) (by unfold spec.calls; simp only [put_same]; rfl) (hseg a (h3 i c l hb)), fun _ => rfl, ?_⟩,
    ?_, ?_, ?_, ?_⟩
  · intro j c₁ l' hj; exact absurd hj (nobody _ _ _)
  · intro j m hj
    by_cases e : j = i
    · subst e; simp only [put_same] at hj; cases hj; exact absurd rfl na
    · simp only [put_other _ _ _ e] at hj; exact hi.acq j m hj
  · intro j c₁ hj
    by_cases e : j = i
    · subst e; simp only [put_same] at hj; cases hj; exact nv rfl
    · simp only [put_other _ _ _ e] at hj; exact hi.val j c₁ hj
  · intro j c₁ r hj
    by_cases e : j = i
    · subst e; simp only [put_same] at hj; cases hj
      left; rw [← (hret r).mp rfl]; simp
    · simp only [put_other _ _ _ e] at hj
      rcases hi.ret j c₁ r hj with h4 | h4
      · left; exact List.mem_append_left _ h4
      · right; exact h4
  · intro j y hy r hr
    rw [List.mem_append, List.mem_singleton] at hy
    rcases hy with hy | hy
    · obtain ⟨c₁, hc₁⟩ := hi.hist j y hy r hr
      have e : j ≠ i := by rintro rfl; rw [hb] at hc₁; cases hc₁
      exact ⟨c₁, by simp only [put_other _ _ _ e]; exact hc₁⟩
    · cases hy
      exact ⟨c, by simp only [put_same]; rw [(hret r).mpr hr]⟩

theorem inv_step {env : Env σ ε ρ μ} {d0 : σ} {s t : St σ ε ρ μ} {h : List (Nat × spec.Exit ε ρ)} (hl : LockInv s)
    (hi : Inv env d0 s h) (st : Step env s t) : ∃ h', Inv env d0 t h' := by
  cases st with
  | call c hn =>
    refine ⟨h, hi.out ?_ ?_ ?_ ?_ ?_ ?_ ?_⟩
    · intro c₀ pc₀ e; rw [hn] at e; cases e
    · intro c l e; rw [hn] at e; cases e
    · intro c r e; rw [hn] at e; cases e
    · cases c <;> simp [entry]
    · intro e m hm; subst hm; simp [entry] at e
    · cases c <;> simp [entry]
    · cases c <;> simp [entry]
  | @good _ m hv hg =>
    refine ⟨h, hi.out ?_ ?_ ?_ (by simp) ?_ (by simp) (by simp)⟩
    · intro c₀ pc₀ e; rw [hv] at e; cases e; rfl
    · intro c l e; rw [hv] at e; cases e
    · intro c r e; rw [hv] at e; cases e
    · intro _ m' hm; cases hm; exact hg
  | @bad _ m hv hg =>
    refine ⟨h, hi.out ?_ ?_ ?_ (by simp) (by simp) (by simp) ?_⟩
    · intro c₀ pc₀ e; rw [hv] at e; cases e; rfl
    · intro c l e; rw [hv] at e; cases e
    · intro c r e; rw [hv] at e; cases e
    · intro r hr; cases hr; exact ⟨m, _, rfl, hg, rfl⟩
  | @acquire i c ha hf =>
    have nobody : ∀ j c₁ l', s.thr j ≠ some (c₁, .body l') := by
      intro j c₁ l' hj
      have := hl.lock.mpr ⟨j, c₁, _, hj, rfl⟩
      rw [hf] at this; cases this
    obtain ⟨a, h1, h2, h3⟩ := hi.ser
    have ha2 : a = s.ps := h2 (by rintro ⟨j, c₁, l', hj⟩; exact nobody _ _ _ hj)
    have mono : ∀ j c₁, spec.calls s j = some c₁ →
        spec.calls { s with locked := true, thr := s.put i c (.body (firstLoc c)) } j = some c₁ := by
      intro j c₁ hj
      unfold spec.calls at hj ⊢
      by_cases e : j = i
      · subst e; rw [ha] at hj; simp only [put_same]; exact hj
      · simp only [put_other _ _ _ e]; exact hj
    refine ⟨h, ⟨a, serial_mono mono h1, ?_, ?_⟩, ?_, ?_, ?_, ?_⟩
    · intro hn; exact absurd ⟨i, c, _, put_same ..⟩ hn
    · intro j c₁ l' hj
      by_cases e : j = i
      · subst e
        simp only [put_same] at hj
        cases hj
        rw [ha2]
        exact mid_first (fun m hm => hi.acq j m (by rw [ha, hm]))
      · simp only [put_other _ _ _ e] at hj; exact absurd hj (nobody _ _ _)
    · intro j m hj
      by_cases e : j = i
      · subst e; simp only [put_same] at hj; cases hj
      · simp only [put_other _ _ _ e] at hj; exact hi.acq j m hj
    · intro j c₁ hj
      by_cases e : j = i
      · subst e; simp only [put_same] at hj; cases hj
      · simp only [put_other _ _ _ e] at hj; exact hi.val j c₁ hj
    · intro j c₁ r hj
      by_cases e : j = i
      · subst e; simp only [put_same] at hj; cases hj
      · simp only [put_other _ _ _ e] at hj; exact hi.ret j c₁ r hj
    · intro j y hy r hr
      obtain ⟨c₁, hc₁⟩ := hi.hist j y hy r hr
      have e : j ≠ i := by rintro rfl; rw [ha] at hc₁; cases hc₁
      exact ⟨c₁, by simp only [put_other _ _ _ e]; exact hc₁⟩
  | @body i c l hb =>
    have hmm : ∀ a, Mid env c a l s.ps → _ := fun a ha => mid_micro ha
    rcases hx : micro env c l s.ps with ⟨x, ps⟩
    simp only [hx] at hmm
    cases x with
    | ret r => exact ⟨_, hi.leave hl hb (x := .ret r) hmm (by simp) (by simp) (by simp) (by simp)⟩
    | again =>
      refine ⟨_, hi.leave hl hb (x := .again) (fun a ha => (hmm a ha).1) (by simp) (by simp) ?_ (by simp)⟩
      intro _
      obtain ⟨a, -, -, h3⟩ := hi.ser
      exact (hmm a (h3 i c l hb)).2
    | crash => exact ⟨_, hi.leave hl hb (x := .crash) hmm (by simp) (by simp) (by simp) (by simp)⟩
    | go l' =>
      obtain ⟨a, h1, h2, h3⟩ := hi.ser
      have mono : ∀ j c₁, spec.calls s j = some c₁ → spec.calls (⟨ps, s.locked, s.put i c (.body l')⟩ : St σ ε ρ μ) j = some c₁ := by
        intro j c₁ hj
        unfold spec.calls at hj ⊢
        by_cases e : j = i
        · subst e; rw [hb] at hj; simp only [put_same]; exact hj
        · simp only [put_other _ _ _ e]; exact hj
      refine ⟨h, ⟨a, serial_mono mono h1, ?_, ?_⟩, ?_, ?_, ?_, ?_⟩
      · intro hn; exact absurd ⟨i, c, _, put_same ..⟩ hn
      · intro j c₁ l'' hj
        by_cases e : j = i
        · subst e
          simp only [settle, put_same] at hj
          cases hj
          exact hmm a (h3 j c l hb)
        · simp only [settle, put_other _ _ _ e] at hj; exact absurd (hl.one _ _ _ _ _ _ hj rfl hb rfl) e
      · intro j m hj
        by_cases e : j = i
        · subst e; simp only [settle, put_same] at hj; cases hj
        · simp only [settle, put_other _ _ _ e] at hj; exact hi.acq j m hj
      · intro j c₁ hj
        by_cases e : j = i
        · subst e; simp only [settle, put_same] at hj; cases hj
        · simp only [settle, put_other _ _ _ e] at hj; exact hi.val j c₁ hj
      · intro j c₁ r hj
        by_cases e : j = i
        · subst e; simp only [settle, put_same] at hj; cases hj
        · simp only [settle, put_other _ _ _ e] at hj; exact hi.ret j c₁ r hj
      · intro j y hy r hr
        obtain ⟨c₁, hc₁⟩ := hi.hist j y hy r hr
        have e : j ≠ i := by rintro rfl; rw [hb] at hc₁; cases hc₁
        exact ⟨c₁, by simp only [settle, put_other _ _ _ e]; exact hc₁⟩

theorem inv_run {env : Env σ ε ρ μ} {d : σ} {s : St σ ε ρ μ} (h : Run env (init d) s) : ∃ hh, Inv env d s hh := by
  generalize hi : init d = i at h
  induction h with
  | refl =>
    subst hi
    exact ⟨[], ⟨⟨none, d⟩, .nil, fun _ => rfl, by simp [init]⟩, by simp [init], by simp [init], by simp [init], by simp⟩
  | tail hr st ih =>
    subst hi
    obtain ⟨hh, hinv⟩ := ih
    exact inv_step (lock_run hr) hinv st

/-! ### The statements -/

/-- C62. Two calls are never inside the mutex at the same time. -/
theorem C62_mutual_exclusion (env : Env σ ε ρ μ) (d : σ) (s : St σ ε ρ μ) (h : Run env (init d) s) (i j : Nat)
    (hi : spec.Inside s i) (hj : spec.Inside s j) : i = j := by
  obtain ⟨c, l, hc⟩ := hi
  obtain ⟨c', l', hc'⟩ := hj
  exact (lock_run h).one i j _ _ _ _ hc rfl hc' rfl

/-- C62. The mutex is locked exactly while some call is inside it, or after a panic inside BaseUpdate: every path on which a call
returns leaves it released. -/
theorem C62_lock_released (env : Env σ ε ρ μ) (d : σ) (s : St σ ε ρ μ) (h : Run env (init d) s) :
    s.locked = true ↔ ∃ i, spec.Inside s i ∨ spec.LeakedBy s i := by
  rw [(lock_run h).lock]
  simp only [held_iff]

/-- C62. Calls take effect one at a time: whenever no call is inside the mutex, the party is in the state that the stays inside the
mutex produce one after the other, each as the specification allows; exactly the calls that returned, except those refused by
ValidateMessage, returned what their stay says. -/
theorem C62_serial (env : Env σ ε ρ μ) (d : σ) (s : St σ ε ρ μ) (h : Run env (init d) s) (hno : ¬ ∃ i, spec.Inside s i) :
    ∃ hist, spec.Serial env (spec.calls s) ⟨none, d⟩ hist s.ps ∧
      (∀ i c r, s.thr i = some (c, .returned r) → (i, spec.Exit.ret r) ∈ hist ∨
        ∃ m x, c = .update m ∧ env.valid m = false ∧ r = .update false (some (.own .invalidMessage x))) ∧
      (∀ i r, (i, spec.Exit.ret r) ∈ hist → ∃ c, s.thr i = some (c, .returned r)) := by
  obtain ⟨hh, hinv⟩ := inv_run h
  obtain ⟨a, h1, h2, -⟩ := hinv.ser
  exact ⟨hh, by rw [← h2 hno]; exact h1, hinv.ret, fun i r hr => hinv.hist i _ hr r rfl⟩

/-- C62. The current round changes only in three ways: Start sets the first round when there is none, or Update replaces a round
that says it can proceed by its next round (which may be none: finished). -/
theorem C62_round_changes (env : Env σ ε ρ μ) (d : σ) (s t : St σ ε ρ μ) (h : Run env (init d) s) (st : Step env s t) :
    t.ps.rnd = s.ps.rnd ∨
    (s.ps.rnd = none ∧ env.idOk = true ∧ t.ps.rnd = (env.first s.ps.data).1 ∧ ∃ i pr, s.thr i = some (.start pr, .body .sCheck)) ∨
    (∃ r, s.ps.rnd = some r ∧ env.can r s.ps.data = true ∧ t.ps.rnd = (env.next r s.ps.data).1) := by
  obtain ⟨hh, hinv⟩ := inv_run h
  obtain ⟨a, -, -, h3⟩ := hinv.ser
  cases st with
  | call c hn => exact .inl rfl
  | good _ _ => exact .inl rfl
  | bad _ _ => exact .inl rfl
  | acquire _ _ => exact .inl rfl
  | @body i c l hb =>
    have hps : ∀ x : After ε ρ × PS σ ρ, (settle s i c x).ps = x.2 := by
      rintro ⟨x, ps⟩; cases x <;> rfl
    rw [hps]
    have hm := h3 i c l hb
    generalize s.ps = b at hm ⊢
    cases hm with
    | @sCheck pr =>
      obtain ⟨rnd, d'⟩ := a
      simp only [micro, sCheck]
      cases hid : env.idOk with
      | false => exact .inl rfl
      | true =>
        cases rnd with
        | some r => exact .inl rfl
        | none =>
          right; left
          simp only [Bool.not_true, Bool.false_eq_true, if_false, Option.isSome_none, setRound]
          refine ⟨trivial, trivial, ?_, i, pr, hb⟩
          split
          · rfl
          · split <;> rfl
    | @sPrepare f d' r d1 hid hf =>
      left; simp only [micro, sPrepare]; split <;> rfl
    | @sRun pr d' r d1 d2 hid hf hpr =>
      left; simp only [micro, sRun]
      cases r with
      | none => rfl
      | some r => simp only; split <;> rfl
    | uStore hv => left; simp only [micro, uStore]; split <;> rfl
    | @uUpdate m r d' d1 hv hs =>
      left; simp only [micro, uUpdate]
      cases r with
      | none => rfl
      | some r => simp only; split <;> rfl
    | @uCan m r d' d1 b d2 hv hs hu => left; simp only [micro, uCan]; split <;> rfl
    | @uNext m r d' d1 b d2 hv hs hu hc => right; right; exact ⟨r, rfl, hc, rfl⟩
    | @uStart m r d' d1 b d2 r' d3 hv hs hu hc hn => left; simp only [micro, uStart]; split <;> rfl
    | wRead =>
      obtain ⟨rnd, d'⟩ := a
      left; simp only [micro, wRead]
      cases rnd with
      | none => rfl
      | some r => simp only; split <;> rfl

/-- C62. A call with an invalid message never enters the mutex, never waits for it, and returns the error of ValidateMessage;
none of its steps changes the party or the mutex. -/
theorem C62_invalid_message (env : Env σ ε ρ μ) (d : σ) (s : St σ ε ρ μ) (h : Run env (init d) s) (i : Nat) (m : μ) (pc : Pc ε ρ)
    (hm : s.thr i = some (.update m, pc)) (hv : env.valid m = false) :
    (pc = .validate ∧ ∃ t, Step env s t ∧ t.ps = s.ps ∧ t.locked = s.locked ∧
        t.thr i = some (.update m, .returned (.update false (some (.own .invalidMessage s.ps.rnd))))) ∨
      ∃ x, pc = .returned (.update false (some (.own .invalidMessage x))) := by
  have key : ∀ s : St σ ε ρ μ, Run env (init d) s → ∀ pc, s.thr i = some (.update m, pc) →
      pc = .validate ∨ ∃ x, pc = .returned (.update false (some (.own .invalidMessage x))) := by
    intro s h
    generalize hi : init d = i0 at h
    induction h with
    | refl => subst hi; intro pc hp; simp [init] at hp
    | @tail s t hr st ih =>
      subst hi
      intro pc hp
      cases st with
      | @call j c hn =>
        by_cases e : i = j
        · subst e; simp only [put_same] at hp; cases hp; left; rfl
        · simp only [put_other _ _ _ e] at hp; exact ih _ hp
      | @good j m' hv' hg =>
        by_cases e : i = j
        · subst e; simp only [put_same] at hp; cases hp; rw [hv] at hg; cases hg
        · simp only [put_other _ _ _ e] at hp; exact ih _ hp
      | @bad j m' hv' hg =>
        by_cases e : i = j
        · subst e; simp only [put_same] at hp; cases hp; right; exact ⟨_, rfl⟩
        · simp only [put_other _ _ _ e] at hp; exact ih _ hp
      | @acquire j c ha hf =>
        by_cases e : i = j
        · subst e; simp only [put_same] at hp; cases hp
          rcases ih _ ha with h1 | ⟨x, h1⟩ <;> cases h1
        · simp only [put_other _ _ _ e] at hp; exact ih _ hp
      | @body j c l hb =>
        by_cases e : i = j
        · subst e
          have hc : c = .update m := by
            have : ∀ x : After ε ρ × PS σ ρ, ∃ pc', (settle s i c x).thr i = some (c, pc') := by
              rintro ⟨x, ps⟩; cases x <;> exact ⟨_, put_same ..⟩
            obtain ⟨pc', hpc'⟩ := this (micro env c l s.ps)
            rw [hpc'] at hp; cases hp; rfl
          subst hc
          rcases ih _ hb with h1 | ⟨x, h1⟩ <;> cases h1
        · have : ∀ x : After ε ρ × PS σ ρ, (settle s j c x).thr i = s.thr i := by
            rintro ⟨x, ps⟩; cases x <;> exact put_other _ _ _ e
          rw [this] at hp; exact ih _ hp
  rcases key s h pc hm with rfl | hx
  · exact .inl ⟨rfl, _, .bad hm hv, rfl, rfl, put_same ..⟩
  · exact .inr hx

/-- C62. A panic of the implementation inside Start or WaitingFor releases the mutex; inside Update it does not, and from then on
no other call ever gets in: the party is unusable. -/
theorem C62_panic_leaks_lock (env : Env σ ε ρ μ) (d : σ) (s : St σ ε ρ μ) (h : Run env (init d) s) (i : Nat)
    (hi : spec.LeakedBy s i) : ∀ t, Run env s t → t.locked = true ∧ t.ps = s.ps ∧ ¬ ∃ j, spec.Inside t j := by
  intro t ht
  have hrun : ∀ t, Run env s t → Run env (init d) t := by
    intro t ht
    induction ht with
    | refl => exact h
    | tail _ st ih => exact .tail ih st
  have key : spec.LeakedBy t i ∧ t.ps = s.ps := by
    induction ht with
    | refl => exact ⟨hi, rfl⟩
    | @tail a b hr st ih =>
      obtain ⟨⟨m, hm⟩, h2⟩ := ih
      have hl := lock_run (hrun a hr)
      have other : ∀ (j : Nat) (c : Call σ ε ρ μ) pc pc', a.thr j = some (c, pc) → pc ≠ .crashed → a.put j c pc' i = some (.update m, .crashed) := by
        intro j c pc pc' hj hne
        have e : i ≠ j := by rintro rfl; rw [hm] at hj; cases hj; exact hne rfl
        rw [put_other _ _ _ e]; exact hm
      cases st with
      | @call j c hn =>
        have e : i ≠ j := by rintro rfl; rw [hm] at hn; cases hn
        exact ⟨⟨m, by simp only [put_other _ _ _ e]; exact hm⟩, h2⟩
      | good hv' _ => exact ⟨⟨m, other _ _ _ _ hv' (by simp)⟩, h2⟩
      | bad hv' _ => exact ⟨⟨m, other _ _ _ _ hv' (by simp)⟩, h2⟩
      | acquire ha hf =>
        have := hl.lock.mpr ⟨i, _, _, hm, rfl⟩
        rw [hf] at this; cases this
      | body hb =>
        have := hl.one _ _ _ _ _ _ hm rfl hb rfl
        subst this
        rw [hm] at hb; cases hb
  have hl := lock_run (hrun t ht)
  obtain ⟨⟨m, hm⟩, h2⟩ := key
  refine ⟨hl.lock.mpr ⟨i, _, _, hm, rfl⟩, h2, ?_⟩
  rintro ⟨j, c, l, hj⟩
  have := hl.one _ _ _ _ _ _ hm rfl hj rfl
  subst this
  rw [hm] at hj; cases hj

/-- C62. Without a panic inside Update, the driver never deadlocks: as long as some call has neither returned nor panicked, some
step is possible. -/
theorem C62_no_deadlock (env : Env σ ε ρ μ) (d : σ) (s : St σ ε ρ μ) (h : Run env (init d) s) (hno : ¬ ∃ i, spec.LeakedBy s i)
    (i : Nat) (c : Call σ ε ρ μ) (pc : Pc ε ρ) (hi : s.thr i = some (c, pc)) (hr : ∀ r, pc ≠ .returned r) (hc : pc ≠ .crashed) :
    ∃ t, Step env s t ∧ t.thr ≠ s.thr := by
  have hl := C62_lock_released env d s h
  have hbody : ∀ j c' l, s.thr j = some (c', .body l) → ∃ t, Step env s t ∧ t.thr ≠ s.thr := by
    intro j c' l hj
    refine ⟨_, .body hj, ?_⟩
    intro e
    obtain ⟨hh, hinv⟩ := inv_run h
    obtain ⟨a, -, -, h3⟩ := hinv.ser
    have hm := h3 j c' l hj
    have e' := congrFun e j
    rw [hj] at e'
    generalize s.ps = b at hm e'
    -- a step inside the mutex never stays at the same place
    have ne : ∀ ps, micro env c' l b ≠ (.go l, ps) := by
      intro ps hp
      cases hm with
      | sCheck => simp only [micro, sCheck, setRound] at hp; (repeat' split at hp) <;> simp at hp
      | sPrepare => simp only [micro, sPrepare] at hp; (repeat' split at hp) <;> simp at hp
      | sRun => simp only [micro, sRun] at hp; (repeat' split at hp) <;> simp at hp
      | uStore => simp only [micro, uStore] at hp; (repeat' split at hp) <;> simp at hp
      | uUpdate => simp only [micro, uUpdate] at hp; (repeat' split at hp) <;> simp at hp
      | uCan => simp only [micro, uCan] at hp; (repeat' split at hp) <;> simp at hp
      | uNext => simp only [micro, uNext] at hp; (repeat' split at hp) <;> simp at hp
      | uStart => simp only [micro, uStart] at hp; (repeat' split at hp) <;> simp at hp
      | wRead => simp only [micro, wRead] at hp; (repeat' split at hp) <;> simp at hp
    generalize micro env c' l b = x at e' ne
    obtain ⟨x, ps⟩ := x
    cases x with
    | go l' => simp only [settle, put_same, Option.some.injEq, Prod.mk.injEq, Pc.body.injEq, true_and] at e'; subst e'; exact ne ps rfl
    | ret r => simp [settle, put_same] at e'
    | again => simp [settle, put_same] at e'
    | crash => simp [settle, put_same] at e'
  cases pc with
  | returned r => exact absurd rfl (hr r)
  | crashed => exact absurd rfl hc
  | body l => exact hbody i c l hi
  | validate =>
    obtain ⟨hh, hinv⟩ := inv_run h
    obtain ⟨m, rfl⟩ := hinv.val i c hi
    cases hv : env.valid m with
    | true => exact ⟨_, .good hi hv, fun e => by have := congrFun e i; simp [put_same, hi] at this⟩
    | false => exact ⟨_, .bad hi hv, fun e => by have := congrFun e i; simp [put_same, hi] at this⟩
  | acquire =>
    cases hk : s.locked with
    | false => exact ⟨_, .acquire hi hk, fun e => by have := congrFun e i; simp [put_same, hi] at this⟩
    | true =>
      obtain ⟨j, hj | hj⟩ := hl.mp hk
      · obtain ⟨c', l, hj⟩ := hj; exact hbody j c' l hj
      · exact absurd ⟨j, hj⟩ hno

/-- Steps left at most after the next one, inside the mutex. -/
def rank : Loc → Nat
  | .sCheck => 2 | .sPrepare => 1 | .sRun => 0
  | .uStore => 4 | .uUpdate => 3 | .uCan => 2 | .uNext => 1 | .uStart => 0
  | .wRead => 0

/-- C62. Every step inside the mutex goes strictly forward, so the mutex is never held for more than five steps. -/
theorem C62_stays_are_short (env : Env σ ε ρ μ) (c : Call σ ε ρ μ) (l l' : Loc) (a b : PS σ ρ)
    (h : micro env c l a = (.go l', b)) : rank l' < rank l := by
  unfold micro at h
  split at h
  · simp only [sCheck, setRound] at h; (repeat' split at h) <;> simp at h <;> (obtain ⟨rfl, -⟩ := h; decide)
  · simp only [sPrepare] at h; (repeat' split at h) <;> simp at h <;> (obtain ⟨rfl, -⟩ := h; decide)
  · simp only [sRun] at h; (repeat' split at h) <;> simp at h
  · simp only [uStore] at h; (repeat' split at h) <;> simp at h <;> (obtain ⟨rfl, -⟩ := h; decide)
  · simp only [uUpdate] at h; (repeat' split at h) <;> simp at h <;> (obtain ⟨rfl, -⟩ := h; decide)
  · simp only [uCan] at h; (repeat' split at h) <;> simp at h <;> (obtain ⟨rfl, -⟩ := h; decide)
  · simp only [uNext] at h
    split at h
    · simp at h
    · simp only [Prod.mk.injEq] at h
      obtain ⟨h1, -⟩ := h
      split at h1 <;> simp at h1
      subst h1; decide
  · simp only [uStart] at h; (repeat' split at h) <;> simp at h
  · simp only [wRead] at h; (repeat' split at h) <;> simp at h
  · simp at h

/-- C62. ValidateMessage accepts exactly the non-nil messages with content, from a sender with a key and a non-negative index, whose
content validates. -/
theorem C62_validate (m : Msg) : ValidateMessage m = .ok () ↔
    m.isNil = false ∧ m.contentNil = false ∧ (∃ p, m.sender = some p ∧ p.key ≠ none ∧ 0 ≤ p.index) ∧ m.basic = true := by
  obtain ⟨n, cn, sd, b⟩ := m
  cases n <;> cases cn <;> cases b <;> cases sd <;> simp [ValidateMessage, PartyID.ValidateBasic, Option.ne_none_iff_isSome]
  all_goals split <;> simp_all

/-! ### Examples, and what the driver does not prevent -/

theorem run_append {env : Env σ ε ρ μ} {a b c : St σ ε ρ μ} (h1 : Run env a b) (h2 : Run env b c) : Run env a c := by
  induction h2 with
  | refl => exact h1
  | tail _ st ih => exact .tail ih st

/-- C62. A party that has no round, also one that has already finished, can be started (again): Start then runs the first round
and returns without error. -/
theorem C62_can_start_again (env : Env σ ε ρ μ) (d : σ) (s : St σ ε ρ μ) (_h : Run env (init d) s) (hr : s.ps.rnd = none)
    (hl : s.locked = false) (i : Nat) (hi : s.thr i = none) (hid : env.idOk = true) (r : ρ) (d1 d2 : σ)
    (hf : env.first s.ps.data = (some r, d1)) (hs : env.start r d1 = .ok () d2) :
    ∃ t, Run env s t ∧ t.ps = ⟨some r, d2⟩ ∧ t.locked = false ∧ t.thr i = some (.start [], .returned (.start none)) := by
  obtain ⟨⟨rnd, d0⟩, lk, thr⟩ := s
  simp only at hr hl hf hi
  subst hr hl
  let s0 : St σ ε ρ μ := ⟨⟨none, d0⟩, false, thr⟩
  let s1 : St σ ε ρ μ := { s0 with thr := s0.put i (.start []) .acquire }
  let s2 : St σ ε ρ μ := { s1 with locked := true, thr := s1.put i (.start []) (.body .sCheck) }
  have e1 : Step env s0 s1 := .call (.start []) hi
  have e2 : Step env s1 s2 := .acquire (put_same ..) rfl
  have hb2 : s2.thr i = some (.start [], .body .sCheck) := put_same ..
  have e3 := Step.body (env := env) hb2
  have m2 : micro env (.start []) .sCheck s2.ps = (.go .sRun, ⟨some r, d1⟩) := by
    change sCheck env [] ⟨none, d0⟩ = _
    simp [sCheck, hid, hf, setRound]
  rw [m2] at e3
  have hb3 : (settle s2 i (.start []) (.go .sRun, ⟨some r, d1⟩)).thr i = some (.start [], .body .sRun) := put_same ..
  have e4 := Step.body (env := env) hb3
  have m3 : micro env (.start []) .sRun (settle s2 i (.start []) (.go .sRun, ⟨some r, d1⟩)).ps = (.ret (.start none), ⟨some r, d2⟩) := by
    change sRun env ⟨some r, d1⟩ = _
    simp [sRun, hs]
  rw [m3] at e4
  exact ⟨_, .tail (.tail (.tail (.tail .refl e1) e2) e3) e4, rfl, rfl, put_same ..⟩

/-- A two-round implementation for the examples: the data are the messages stored; round k waits for k + 1 messages; message 99 makes
the implementation panic, message 0 is invalid. -/
def toy : Env (List Nat) String Nat Nat where
  idOk := true
  first d := (some 0, d)
  valid m := m != 0
  store m d := if m = 99 then .panic d else .ok true (if m ∈ d then d else m :: d)
  update _ d := .ok true d
  can r d := decide (r < d.length)
  next r d := (if r = 1 then none else some (r + 1), d)
  start _ d := .ok () d
  waiting r d := some [r - d.length]

/-- The calls of the example: Start, Update 5, Update 7, Update 99, Update 0. -/
def toyCall : Nat → Call (List Nat) String Nat Nat
  | 0 => .start []
  | 1 => .update 5
  | 2 => .update 7
  | 3 => .update 99
  | _ => .update 0

/-- A schedule: which call makes the next step. -/
def toyStep (s : St (List Nat) String Nat Nat) (i : Nat) : Option (St (List Nat) String Nat Nat) :=
  match s.thr i with
  | none => some { s with thr := s.put i (toyCall i) (entry (toyCall i)) }
  | some (.update m, .validate) =>
    if toy.valid m then some { s with thr := s.put i (.update m) .acquire }
    else some { s with thr := s.put i (.update m) (.returned (.update false (some (wrapError s.ps .invalidMessage)))) }
  | some (c, .acquire) => if s.locked then none else some { s with locked := true, thr := s.put i c (.body (firstLoc c)) }
  | some (c, .body l) => some (settle s i c (micro toy c l s.ps))
  | _ => none

theorem toyStep_sound {s t : St (List Nat) String Nat Nat} {i : Nat} (h : toyStep s i = some t) : Step toy s t := by
  unfold toyStep at h
  split at h
  · rename_i hn; cases h; exact .call _ hn
  · rename_i m hm
    split at h
    · rename_i hv; cases h; exact .good hm hv
    · rename_i hv; cases h; exact .bad hm (by simpa using hv)
  · rename_i c hc
    split at h
    · cases h
    · rename_i hl; cases h; exact .acquire hc (by simpa using hl)
  · rename_i c l hc; cases h; exact .body hc
  · cases h

def toyRun (s : St (List Nat) String Nat Nat) : List Nat → Option (St (List Nat) String Nat Nat)
  | [] => some s
  | i :: t => (toyStep s i).bind fun s' => toyRun s' t

theorem toyRun_sound : ∀ {l : List Nat} {s t : St (List Nat) String Nat Nat}, toyRun s l = some t → Run toy s t
  | [], s, t, h => by cases h; exact .refl
  | i :: l, s, t, h => by
    simp only [toyRun, Option.bind_eq_some_iff] at h
    obtain ⟨s', h1, h2⟩ := h
    exact run_append (.tail .refl (toyStep_sound h1)) (toyRun_sound h2)

/-- Start and two interleaved updates take the party through both rounds to the end; an invalid message is refused on the way. -/
example : ∃ t, Run toy (init []) t ∧ t.ps.rnd = none ∧ t.ps.data = [7, 5] ∧ t.locked = false ∧
    (∃ r, t.thr 4 = some (.update 0, .returned r)) := by
  have h : ((toyRun (init []) ([0, 0, 1, 2, 0, 0, 1, 1, 2, 1, 1, 4, 1, 1, 4, 1, 1, 1, 1, 1, 1] ++
      List.replicate 9 2)).map fun t => (t.ps.rnd, t.ps.data, t.locked, (t.thr 4).isSome &&
      (match t.thr 4 with | some (.update 0, .returned _) => true | _ => false))) = some (none, [7, 5], false, true) := by
    decide +kernel
  rw [Option.map_eq_some_iff] at h
  obtain ⟨t, h1, h2⟩ := h
  simp only [Prod.mk.injEq] at h2
  obtain ⟨a, b, c, e⟩ := h2
  refine ⟨t, toyRun_sound h1, a, b, c, ?_⟩
  split at e
  · rename_i r hr; exact ⟨r, hr⟩
  · simp at e

/-- A panic inside Update. -/
example : ∃ t, Run toy (init []) t ∧ spec.LeakedBy t 3 := by
  have h : ((toyRun (init []) [3, 3, 3, 3]).map fun t => (match t.thr 3 with | some (.update 99, .crashed) => true | _ => false))
      = some true := by decide +kernel
  rw [Option.map_eq_some_iff] at h
  obtain ⟨t, h1, h2⟩ := h
  refine ⟨t, toyRun_sound h1, 99, ?_⟩
  split at h2
  · rename_i hr; exact hr
  · cases h2

end Tss.Party
