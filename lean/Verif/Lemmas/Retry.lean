import Verif.Model.Keygen
/-
Calls that fail and are made again: what is common to the two packages.
-/
namespace Tss.Retry
open Tss

/-! ### Lists that agree outside a set of positions -/

variable {α : Type}

/-- Same length, and the same elements at the positions outside `D`. -/
def Agree (D : Nat → Prop) (a b : List α) : Prop := a.length = b.length ∧ ∀ j, ¬ D j → a[j]? = b[j]?

theorem Agree.refl (D : Nat → Prop) (a : List α) : Agree D a a := ⟨rfl, fun _ _ => rfl⟩

theorem Agree.trans {D : Nat → Prop} {a b c : List α} (h : Agree D a b) (h' : Agree D b c) : Agree D a c :=
  ⟨h.1.trans h'.1, fun j hj => (h.2 j hj).trans (h'.2 j hj)⟩

theorem Agree.mono {D D' : Nat → Prop} {a b : List α} (h : Agree D a b) (hd : ∀ j, D j → D' j) : Agree D' a b :=
  ⟨h.1, fun j hj => h.2 j fun h' => hj (hd j h')⟩

theorem Agree.set {D : Nat → Prop} {a b : List α} (h : Agree D a b) (j : Nat) (v : α) : Agree (fun k => D k ∧ k ≠ j) (a.set j v) (b.set j v) := by
  refine ⟨by simp [h.1], fun k hk => ?_⟩
  by_cases hkj : j = k
  · subst hkj; rw [List.getElem?_set, List.getElem?_set, if_pos rfl, if_pos rfl, h.1]
  · rw [List.getElem?_set_ne hkj, List.getElem?_set_ne hkj]
    exact h.2 k fun hd => hk ⟨hd, fun h' => hkj h'.symm⟩

theorem Agree.set_both {D : Nat → Prop} {a b : List α} (h : Agree D a b) (j : Nat) (v : α) : Agree D (a.set j v) (b.set j v) :=
  (h.set j v).mono fun _ hk => hk.1

theorem Agree.set_left {D : Nat → Prop} {a b : List α} (h : Agree D a b) (j : Nat) (hj : D j) (v : α) : Agree D (a.set j v) b := by
  refine ⟨by simp [h.1], fun k hk => ?_⟩
  by_cases hkj : j = k
  · subst hkj; exact absurd hj hk
  · rw [List.getElem?_set_ne hkj]; exact h.2 k hk

theorem Agree.eq {D : Nat → Prop} {a b : List α} (h : Agree D a b) (hd : ∀ j, ¬ D j) : a = b := List.ext_getElem? fun j => h.2 j (hd j)

theorem map_false {a b : List Bool} (h : a.length = b.length) : (a.map fun _ => false) = b.map fun _ => false := by
  rw [List.map_const', List.map_const', h]

/-! ### Loops whose outcome does not depend on what they write -/

variable {σ ε W : Type}

/-- the outcome of the loop -/
def outcome (res : Nat → Res ε Unit) : List Nat → Res ε Unit
  | [] => .ok ()
  | j :: t => match res j with
    | .ok _ => outcome res t
    | .err e => .err e
    | .panic => .panic

/-- what the loop has written when it stops -/
def done (res : Nat → Res ε Unit) (upd : Nat → W → W) : List Nat → W → W
  | [], w => w
  | j :: t, w => match res j with
    | .ok _ => done res upd t (upd j w)
    | _ => upd j w

theorem forJ_core (step : σ → Nat → Res ε Unit × σ) (mk : W → σ) (res : Nat → Res ε Unit) (upd : Nat → W → W)
    (h : ∀ w j, step (mk w) j = (res j, mk (upd j w))) : ∀ (l : List Nat) (w : W),
    Keygen.forJ step l (mk w) = (outcome res l, mk (done res upd l w))
  | [], w => rfl
  | j :: t, w => by
    unfold Keygen.forJ outcome done
    rw [h]
    cases hr : res j with
    | ok u => exact forJ_core step mk res upd h t (upd j w)
    | err e => rfl
    | panic => rfl

theorem done_inv {I : W → Prop} (res : Nat → Res ε Unit) (upd : Nat → W → W) : ∀ (l : List Nat) (w : W), (∀ j ∈ l, ∀ w, I w → I (upd j w)) →
    I w → I (done res upd l w)
  | [], w, _, hw => hw
  | j :: t, w, h, hw => by
    unfold done
    split
    · exact done_inv res upd t _ (fun k hk => h k (by simp [hk])) (h j (by simp) w hw)
    · exact h j (by simp) w hw

/-- if the loop runs to its end, two runs that are related outside the positions still to be written end in related states -/
theorem done_sync {R : List Nat → W → W → Prop} (res : Nat → Res ε Unit) (upd : Nat → W → W)
    (hR : ∀ j t w w', res j = .ok () → R (j :: t) w w' → R t (upd j w) (upd j w')) : ∀ (l : List Nat) (w w' : W), outcome res l = .ok () → R l w w' →
    R [] (done res upd l w) (done res upd l w')
  | [], w, w', _, h => h
  | j :: t, w, w', ho, h => by
    unfold outcome at ho
    unfold done
    cases hr : res j with
    | ok u => rw [hr] at ho; exact done_sync res upd hR t _ _ ho (hR j t w w' hr h)
    | err e => rw [hr] at ho; cases ho
    | panic => rw [hr] at ho; cases ho

/-! ### Histories -/

variable {P Op Out : Type}

/-- Run calls one after the other. -/
def runs (run : Op → (Bytes → Option P) → Out × (Bytes → Option P)) : List Op → (Bytes → Option P) → Bytes → Option P
  | [], r => r
  | op :: t, r => runs run t (run op r).2

/-- While the calls run, those on the party in question are harmless ones or tries that fail. -/
def Tries (run : Op → (Bytes → Option P) → Out × (Bytes → Option P)) (mine harmless tries : Op → Bool) (failed : Out → Prop) :
    List Op → (Bytes → Option P) → Prop
  | [], _ => True
  | op :: t, r => (mine op = true → harmless op = true ∨ (tries op = true ∧ failed (run op r).1)) ∧
      Tries run mine harmless tries failed t (run op r).2

/-- The history without the tries. -/
def without (mine tries : Op → Bool) (ops : List Op) : List Op := ops.filter fun op => !(mine op && tries op)

/-- Registries that agree but for one party, and are related there. -/
def RelReg (Rel : P → P → Prop) (key : Bytes) (r s : Bytes → Option P) : Prop :=
  (∀ k, k ≠ key → r k = s k) ∧ ((r key = none ∧ s key = none) ∨ ∃ p q, r key = some p ∧ s key = some q ∧ Rel p q)

theorem RelReg.refl {Rel : P → P → Prop} (h : ∀ p, Rel p p) (key : Bytes) (r : Bytes → Option P) : RelReg Rel key r r := by
  refine ⟨fun _ _ => rfl, ?_⟩
  cases hk : r key with
  | none => exact .inl ⟨rfl, rfl⟩
  | some p => exact .inr ⟨p, p, rfl, rfl, h p⟩

theorem tries_rel (run : Op → (Bytes → Option P) → Out × (Bytes → Option P)) (okey : Op → Bytes) (key : Bytes)
    (other : ∀ op r k, k ≠ okey op → (run op r).2 k = r k)
    (loc : ∀ op r r', r (okey op) = r' (okey op) → (run op r).2 (okey op) = (run op r').2 (okey op))
    (Rel : P → P → Prop) (harmless tries : Op → Bool) (failed : Out → Prop)
    (disj : ∀ op, harmless op = true → tries op = false)
    (hkeep : ∀ op r s, okey op = key → harmless op = true → RelReg Rel key r s → RelReg Rel key (run op r).2 (run op s).2)
    (hfail : ∀ op r s, okey op = key → tries op = true → failed (run op r).1 → RelReg Rel key r s → RelReg Rel key (run op r).2 s) :
    ∀ (ops : List Op) (r s : Bytes → Option P), Tries run (fun op => okey op == key) harmless tries failed ops r → RelReg Rel key r s →
      RelReg Rel key (runs run ops r) (runs run (without (fun op => okey op == key) tries ops) s)
  | [], r, s, _, h => h
  | op :: t, r, s, ht, h => by
    obtain ⟨h1, h2⟩ := ht
    by_cases hm : okey op = key
    · rcases h1 (by simpa using hm) with hh | ⟨htr, hf⟩
      · unfold without
        rw [List.filter_cons_of_pos (by rw [disj op hh, Bool.and_false]; rfl)]
        exact tries_rel run okey key other loc Rel harmless tries failed disj hkeep hfail t _ _ h2 (hkeep op r s hm hh h)
      · unfold without
        rw [List.filter_cons_of_neg (by simp [hm, htr])]
        exact tries_rel run okey key other loc Rel harmless tries failed disj hkeep hfail t _ _ h2 (hfail op r s hm htr hf h)
    · unfold without
      rw [List.filter_cons_of_pos (by simp [hm])]
      refine tries_rel run okey key other loc Rel harmless tries failed disj hkeep hfail t _ _ h2 ⟨fun k hk => ?_, ?_⟩
      · by_cases hko : k = okey op
        · subst hko; exact loc op r s (h.1 _ hk)
        · rw [other op r k hko, other op s k hko]; exact h.1 k hk
      · rw [other op r key fun h' => hm h'.symm, other op s key fun h' => hm h'.symm]; exact h.2

/-- What a message call does to a list of stored messages: nothing, or one slot is overwritten. -/
def MsgFn (s : List Bytes → List Bytes) : Prop := s = id ∨ ∃ j b, s = fun l => l.set j b

theorem MsgFn.id : MsgFn id := .inl rfl

theorem MsgFn.length {s : List Bytes → List Bytes} (h : MsgFn s) (l : List Bytes) : (s l).length = l.length := by
  rcases h with rfl | ⟨j, b, rfl⟩
  · rfl
  · exact List.length_set

theorem MsgFn.agree {s : List Bytes → List Bytes} (h : MsgFn s) {D : Nat → Prop} {a b : List Bytes} (hab : Agree D a b) : Agree D (s a) (s b) := by
  rcases h with rfl | ⟨j, v, rfl⟩
  · exact hab
  · exact hab.set_both j v

/-- a loop whose step commutes with a change of the state that it does not look at -/
theorem forJ_map (step : σ → Nat → Res ε Unit × σ) (f : σ → σ) (h : ∀ s j, step (f s) j = ((step s j).1, f (step s j).2)) :
    ∀ (l : List Nat) (s : σ), Keygen.forJ step l (f s) = ((Keygen.forJ step l s).1, f (Keygen.forJ step l s).2)
  | [], s => rfl
  | j :: t, s => by
    unfold Keygen.forJ
    rw [h]
    rcases hs : step s j with ⟨o, s'⟩
    cases o with
    | ok u => exact forJ_map step f h t s'
    | err e => rfl
    | panic => rfl

theorem forJ_inv {I : σ → Prop} (step : σ → Nat → Res ε Unit × σ) (h : ∀ s j, I s → I (step s j).2) :
    ∀ (l : List Nat) (s : σ), I s → I (Keygen.forJ step l s).2
  | [], s, hs => hs
  | j :: t, s, hs => by
    unfold Keygen.forJ
    have := h s j hs
    rcases hq : step s j with ⟨o, s'⟩
    rw [hq] at this
    cases o with
    | ok u => exact forJ_inv step h t s' this
    | err e => exact this
    | panic => exact this

end Tss.Retry
