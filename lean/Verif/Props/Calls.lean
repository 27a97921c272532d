import Verif.Model.Calls
import Mathlib.Tactic.Common
import Mathlib.Data.List.Basic
/-
C102: exported calls made at the same time.
-/
namespace Tss.Calls
open Tss
variable {L P R : Type}

/-! ### Specification -/

/-- The call made on its own, on a registry that holds the parties themselves. -/
def spec.alone (c : Call L P R) (reg : Bytes → Option P) : R × (Bytes → Option P) :=
  match c.code with
  | .create none r => (r, reg)
  | .create (some p) r => (r, fun k => if k = c.key then some p else reg k)
  | .remove y n => match reg c.key with
    | none => (n, reg)
    | some _ => (y, fun k => if k = c.key then none else reg k)
  | .use m l0 f more ret => match reg c.key with
    | none => (m, reg)
    | some p =>
      let q := (f :: more).foldl (fun x g => g x) (l0, p)
      (ret q.1, fun k => if k = c.key then some q.2 else reg k)

/-- The calls of `h`, one after the other from the empty registry, return the values in `h` and leave `reg`. -/
inductive spec.Serial (calls : Nat → Option (Call L P R)) : List (Nat × R) → (Bytes → Option P) → Prop
  | nil : Serial calls [] (fun _ => none)
  | snoc {h reg i c} : Serial calls h reg → calls i = some c → Serial calls (h ++ [(i, (spec.alone c reg).1)]) (spec.alone c reg).2

/-- The calls made so far. -/
def spec.calls (s : St L P R) (i : Nat) : Option (Call L P R) := (s.thr i).map (·.1)

/-- Call `i` has not returned. -/
def spec.Active (s : St L P R) (i : Nat) (c : Call L P R) : Prop := ∃ pc, s.thr i = some (c, pc) ∧ ∀ r, pc ≠ .done r

/-- What is registered. -/
def spec.view (s : St L P R) (k : Bytes) : Option P := (s.map k).map s.heap

/-- A call on an existing party. -/
def spec.IsUse (c : Call L P R) : Prop := ∃ m l0 f more ret, c.code = .use m l0 f more ret

/-- A call on an existing party that touches it once. -/
def spec.Single (c : Call L P R) : Prop := ∃ m l0 f ret, c.code = .use m l0 f [] ret

/-- Two calls that may overlap: neither creates nor removes a party, and they have different keys or touch their party once each. -/
def spec.Compat (c c' : Call L P R) : Prop := spec.IsUse c ∧ spec.IsUse c' ∧ (c.key ≠ c'.key ∨ spec.Single c ∧ spec.Single c')

/-- Callers make a call only while all calls in progress are compatible with it. -/
def spec.Polite (_ : Nat) (s : St L P R) (c : Call L P R) : Prop := ∀ j c', spec.Active s j c' → spec.Compat c c'

/-- Two calls are in the map at the same time and one of them is changing it: Go stops the process ("concurrent map writes", "concurrent
map read and map write") or anything happens. -/
def spec.Race (s : St L P R) : Prop := ∃ i j ci cj pj, i ≠ j ∧ s.thr i = some (ci, .writing) ∧ s.thr j = some (cj, pj) ∧
  (pj = .reading ∨ pj = .writing)

/-! ### Proofs -/

structure Inv (s : St L P R) (reg : Bytes → Option P) : Prop where
  pair : ∀ i j c c', i ≠ j → spec.Active s i c → spec.Active s j c' → spec.Compat c c'
  fresh : ∀ k r, s.map k = some r → r < s.next
  inj : ∀ k k' r, s.map k = some r → s.map k' = some r → k = k'
  body : ∀ i k m l0 f more ret ref l g rest, s.thr i = some (⟨k, .use m l0 f more ret⟩, .body ref l g rest) →
    s.map k = some ref ∧ ∃ dn p0, f :: more = dn ++ g :: rest ∧ reg k = some p0 ∧ (l, s.heap ref) = dn.foldl (fun x g => g x) (l0, p0)
  same : ∀ k, (∀ i m l0 f more ret ref l g rest, s.thr i = some (⟨k, .use m l0 f more ret⟩, .body ref l g rest) → more.length ≤ rest.length) →
    spec.view s k = reg k
  write : ∀ i c, s.thr i = some (c, .writing) → ¬ spec.IsUse c
  del : ∀ i k y n, (s.thr i = some (⟨k, .remove y n⟩, .found) ∨ s.thr i = some (⟨k, .remove y n⟩, .writing)) → ∃ r, s.map k = some r

theorem put_self (s : St L P R) (i c pc) : (s.put i c pc).thr i = some (c, pc) := by simp [St.put]

theorem put_other (s : St L P R) {i j : Nat} (c pc) (h : j ≠ i) : (s.put i c pc).thr j = s.thr j := by simp [St.put, h]

/-- After call i moved from `pc0` (not done) to `pc`, the active calls were active before. -/
theorem active_put {s : St L P R} {i : Nat} {c : Call L P R} {pc0 pc : Pc L P R} (h0 : s.thr i = some (c, pc0)) (hd : ∀ r, pc0 ≠ .done r)
    {j : Nat} {c' : Call L P R} (h : spec.Active (s.put i c pc) j c') : spec.Active s j c' := by
  obtain ⟨q, h1, h2⟩ := h
  by_cases hj : j = i
  · subst hj
    rw [put_self] at h1
    injection h1 with h1
    injection h1 with h1 _
    subst h1
    exact ⟨pc0, h0, hd⟩
  · rw [put_other _ _ _ hj] at h1
    exact ⟨q, h1, h2⟩

/-- Nothing else is in progress beside a call that is not a use. -/
theorem Inv.lonely {s : St L P R} {reg} (hI : Inv s reg) {i : Nat} {c : Call L P R} (hc : spec.Active s i c) (hn : ¬ spec.IsUse c)
    {j : Nat} {c' : Call L P R} (hj : spec.Active s j c') : j = i := by
  by_contra hne
  exact hn (hI.pair i j c c' (Ne.symm hne) hc hj).1

/-- A move that touches neither map nor objects, to a place that is not in the body. -/
theorem Inv.move {s : St L P R} {reg} (hI : Inv s reg) {i : Nat} {c : Call L P R} {pc0 pc : Pc L P R} (h0 : s.thr i = some (c, pc0))
    (hd : ∀ r, pc0 ≠ .done r) (hb0 : ∀ ref l g rest, pc0 ≠ .body ref l g rest) (hb : ∀ ref l g rest, pc ≠ .body ref l g rest)
    (hw : pc = .writing → ¬ spec.IsUse c) (hdel : ∀ k y n, c = ⟨k, .remove y n⟩ → (pc = .found ∨ pc = .writing) → ∃ r, s.map k = some r) :
    Inv (s.put i c pc) reg where
  pair a b ca cb hab h1 h2 := hI.pair a b ca cb hab (active_put h0 hd h1) (active_put h0 hd h2)
  fresh := hI.fresh
  inj := hI.inj
  body j k m l0 f more ret ref l g rest h := by
    by_cases hj : j = i
    · subst hj
      rw [put_self] at h
      injection h with h; injection h with _ h
      exact absurd h (hb _ _ _ _)
    · rw [put_other _ _ _ hj] at h
      exact hI.body j k m l0 f more ret ref l g rest h
  same k h := by
    refine hI.same k fun j m l0 f more ret ref l g rest hj => ?_
    by_cases hji : j = i
    · subst hji
      rw [h0] at hj
      injection hj with hj; injection hj with _ hj
      exact absurd hj (hb0 _ _ _ _)
    · exact h j m l0 f more ret ref l g rest (by rw [put_other _ _ _ hji]; exact hj)
  write j c' h := by
    by_cases hj : j = i
    · subst hj
      rw [put_self] at h
      injection h with h; injection h with h1 h2
      subst h1
      exact hw h2
    · rw [put_other _ _ _ hj] at h
      exact hI.write j c' h
  del j k y n h := by
    by_cases hj : j = i
    · subst hj
      rw [put_self] at h
      rcases h with h | h
      · injection h with h; injection h with h1 h2
        exact hdel k y n h1 (.inl h2)
      · injection h with h; injection h with h1 h2
        exact hdel k y n h1 (.inr h2)
    · rw [put_other _ _ _ hj] at h
      exact hI.del j k y n h

theorem Inv.call {s : St L P R} {reg} (hI : Inv s reg) {i : Nat} {c : Call L P R} (h0 : s.thr i = none) (hp : spec.Polite i s c) :
    Inv (s.put i c .ready) reg where
  pair a b ca cb hab h1 h2 := by
    have hact : ∀ j c', j ≠ i → spec.Active (s.put i c .ready) j c' → spec.Active s j c' := by
      rintro j c' hj ⟨q, h1, h2⟩
      rw [put_other _ _ _ hj] at h1
      exact ⟨q, h1, h2⟩
    have hi : ∀ c', spec.Active (s.put i c .ready) i c' → c' = c := by
      rintro c' ⟨q, h1, -⟩
      rw [put_self] at h1
      injection h1 with h1; injection h1 with h1 _
      exact h1.symm
    by_cases ha : a = i
    · subst ha
      rw [hi _ h1]
      exact hp b cb (hact b cb (Ne.symm hab) h2)
    · by_cases hb : b = i
      · subst hb
        rw [hi _ h2]
        obtain ⟨u1, u2, u3⟩ := hp a ca (hact a ca hab h1)
        exact ⟨u2, u1, u3.elim (fun h => .inl (Ne.symm h)) fun h => .inr ⟨h.2, h.1⟩⟩
      · exact hI.pair a b ca cb hab (hact a ca ha h1) (hact b cb hb h2)
  fresh := hI.fresh
  inj := hI.inj
  body j k m l0 f more ret ref l g rest h := by
    by_cases hj : j = i
    · subst hj
      rw [put_self] at h
      injection h with h; injection h with _ h
      cases h
    · rw [put_other _ _ _ hj] at h
      exact hI.body j k m l0 f more ret ref l g rest h
  same k h := by
    refine hI.same k fun j m l0 f more ret ref l g rest hj => ?_
    have hji : j ≠ i := by
      rintro rfl
      rw [h0] at hj
      cases hj
    exact h j m l0 f more ret ref l g rest (by rw [put_other _ _ _ hji]; exact hj)
  write j c' h := by
    by_cases hj : j = i
    · subst hj
      rw [put_self] at h
      injection h with h; injection h with _ h
      cases h
    · rw [put_other _ _ _ hj] at h
      exact hI.write j c' h
  del j k y n h := by
    by_cases hj : j = i
    · subst hj
      rw [put_self] at h
      rcases h with h | h <;> (injection h with h; injection h with _ h; cases h)
    · rw [put_other _ _ _ hj] at h
      exact hI.del j k y n h

/-- The view of a key nobody is working on is the serial registry. -/
theorem Inv.idle {s : St L P R} {reg} (hI : Inv s reg) {i : Nat} {c : Call L P R} {pc : Pc L P R} (h0 : s.thr i = some (c, pc)) (hd : ∀ r, pc ≠ .done r)
    (hb : ∀ ref l g rest, pc ≠ .body ref l g rest) : spec.view s c.key = reg c.key := by
  refine hI.same _ fun j m l0 f more ret ref l g rest hj => ?_
  by_cases hji : j = i
  · subst hji
    rw [h0] at hj
    injection hj with hj; injection hj with _ hj
    exact absurd hj (hb _ _ _ _)
  · have hcp := hI.pair j i _ _ hji ⟨_, hj, by intro r h; cases h⟩ ⟨_, h0, hd⟩
    obtain ⟨-, -, h | ⟨⟨m', l', f', ret', h⟩, -⟩⟩ := hcp
    · exact absurd rfl h
    · injection h with _ _ _ h _
      rw [h]; exact Nat.zero_le _

/-- Everything in progress alone: creating and removing. -/
theorem Inv.alone {s : St L P R} {reg reg'} (hI : Inv s reg) {i : Nat} {c : Call L P R} {pc0 : Pc L P R} (h0 : s.thr i = some (c, pc0))
    (hd : ∀ r, pc0 ≠ .done r) (hn : ¬ spec.IsUse c) (t : St L P R) (ht : t.thr = s.thr) (r : R)
    (hfresh : ∀ k r, t.map k = some r → r < t.next) (hinj : ∀ k k' r, t.map k = some r → t.map k' = some r → k = k')
    (hview : ∀ k, (spec.view s k = reg k) → spec.view t k = reg' k) : Inv (t.put i c (.done r)) reg' := by
  have hact : ∀ j c', ¬ spec.Active (t.put i c (.done r)) j c' := by
    rintro j c' ⟨q, h1, h2⟩
    by_cases hj : j = i
    · subst hj
      rw [put_self] at h1
      injection h1 with h1; injection h1 with _ h1
      exact h2 r h1.symm
    · rw [put_other _ _ _ hj, ht] at h1
      exact hj (hI.lonely ⟨_, h0, hd⟩ hn ⟨q, h1, h2⟩)
  have hnb : ∀ j k m l0 f more ret ref l g rest, ¬ s.thr j = some (⟨k, .use m l0 f more ret⟩, .body ref l g rest) := by
    intro j k m l0 f more ret ref l g rest h
    have hj : j = i := hI.lonely ⟨_, h0, hd⟩ hn ⟨_, h, by intro r h; cases h⟩
    subst hj
    rw [h0] at h
    injection h with h; injection h with h _
    exact hn ⟨m, l0, f, more, ret, by rw [h]⟩
  refine ⟨?_, hfresh, hinj, ?_, ?_, ?_, ?_⟩
  · intro a b ca cb _ h1; exact absurd h1 (hact _ _)
  · intro j k m l0 f more ret ref l g rest h
    exact absurd ⟨_, h, by intro r h; cases h⟩ (hact j _)
  · intro k _
    exact hview k (hI.same k fun j m l0 f more ret ref l g rest h => absurd h (hnb _ _ _ _ _ _ _ _ _ _ _))
  · intro j c' h; exact absurd ⟨_, h, by intro r h; cases h⟩ (hact j _)
  · intro j k y n h
    rcases h with h | h <;> exact absurd ⟨_, h, by intro r h; cases h⟩ (hact j _)

/-- One step of the work on a party. -/
theorem Inv.worked {s : St L P R} {reg} (hI : Inv s reg) {i : Nat} {k : Bytes} {m : R} {l0 l : L} {f g : L × P → L × P} {more rest : List (L × P → L × P)} {ret : L → R} {ref : Nat}
    (h0 : s.thr i = some (⟨k, .use m l0 f more ret⟩, .body ref l g rest)) :
    (∀ g' rest', rest = g' :: rest' → Inv ((s.store ref (g (l, s.heap ref)).2).put i ⟨k, .use m l0 f more ret⟩ (.body ref (g (l, s.heap ref)).1 g' rest')) reg) ∧
    (rest = [] → (spec.alone ⟨k, .use m l0 f more ret⟩ reg).1 = ret (g (l, s.heap ref)).1 ∧
      Inv ((s.store ref (g (l, s.heap ref)).2).put i ⟨k, .use m l0 f more ret⟩ (.done (ret (g (l, s.heap ref)).1)))
        (spec.alone ⟨k, .use m l0 f more ret⟩ reg).2) := by
  obtain ⟨hm, dn, p0, hdn, hp0, hfold⟩ := hI.body _ _ _ _ _ _ _ _ _ _ _ h0
  have hd : ∀ r, (Pc.body ref l g rest : Pc L P R) ≠ .done r := by intro r h; cases h
  have hothermap : ∀ k', k' ≠ k → s.map k' ≠ some ref := fun k' hk h => hk (hI.inj _ _ _ h hm)
  have hview : ∀ p k', k' ≠ k → spec.view (s.store ref p) k' = spec.view s k' := by
    intro p k' hk
    unfold spec.view St.store
    simp only
    cases hmk : s.map k' with
    | none => rfl
    | some r =>
      have : r ≠ ref := by rintro rfl; exact hothermap k' hk hmk
      simp [this]
  have hfold' : g (l, s.heap ref) = (dn ++ [g]).foldl (fun x g => g x) (l0, p0) := by
    rw [List.foldl_append, ← hfold]; rfl
  constructor
  · rintro g' rest' rfl
    refine ⟨?_, hI.fresh, hI.inj, ?_, ?_, ?_, ?_⟩
    · intro a b ca cb hab h1 h2
      exact hI.pair a b ca cb hab (active_put (s := s) h0 hd h1) (active_put (s := s) h0 hd h2)
    · intro j k' m' l0' f' more' ret' ref' l' g'' rest'' h
      by_cases hj : j = i
      · subst hj
        rw [put_self] at h
        injection h with h
        injection h with h1 h2
        injection h1 with h1 h3
        injection h3 with a1 a2 a3 a4 a5
        injection h2 with b1 b2 b3 b4
        subst h1 a1 a2 a3 a4 a5 b1 b2 b3 b4
        refine ⟨hm, dn ++ [g], p0, by rw [hdn]; simp, hp0, ?_⟩
        rw [← hfold']
        simp [St.put, St.store]
      · rw [put_other _ _ _ hj] at h
        obtain ⟨c1, dn', p0', c2, c3, c4⟩ := hI.body _ _ _ _ _ _ _ _ _ _ _ h
        have hk : k' ≠ k := by
          have hcp := hI.pair j i _ _ hj ⟨_, h, by intro r h; cases h⟩ ⟨_, h0, hd⟩
          obtain ⟨-, -, hcp | ⟨-, ⟨m1, l1, f1, ret1, hs⟩⟩⟩ := hcp
          · exact hcp
          · injection hs with _ _ _ hs _
            rw [hs] at hdn
            have := congrArg List.length hdn
            simp at this
            omega
        refine ⟨c1, dn', p0', c2, c3, ?_⟩
        rw [← c4]
        have : ref' ≠ ref := by rintro rfl; exact hothermap k' hk c1
        simp [St.put, St.store, this]
    · intro k' hk'
      have hk : k' ≠ k := by
        rintro rfl
        have h1 := hk' i m l0 f more ret ref _ g' rest' (put_self _ _ _ _)
        have := congrArg List.length hdn
        simp at this
        omega
      rw [show spec.view ((s.store ref (g (l, s.heap ref)).2).put i ⟨k, .use m l0 f more ret⟩ (.body ref (g (l, s.heap ref)).1 g' rest')) k' =
        spec.view (s.store ref (g (l, s.heap ref)).2) k' from rfl, hview _ _ hk]
      refine hI.same k' fun j m' l0' f' more' ret' ref' l' g'' rest'' h => ?_
      have hj : j ≠ i := by
        rintro rfl
        rw [h0] at h
        injection h with h; injection h with h _; injection h with h _
        exact hk h.symm
      exact hk' j m' l0' f' more' ret' ref' l' g'' rest'' (by rw [put_other _ _ _ hj]; exact h)
    · intro j c' h
      by_cases hj : j = i
      · subst hj
        rw [put_self] at h
        injection h with h; injection h with _ h; cases h
      · rw [put_other _ _ _ hj] at h; exact hI.write j c' h
    · intro j k' y n h
      by_cases hj : j = i
      · subst hj
        rw [put_self] at h
        rcases h with h | h <;> (injection h with h; injection h with _ h; cases h)
      · rw [put_other _ _ _ hj] at h; exact hI.del j k' y n h
  · rintro rfl
    have hall : (f :: more).foldl (fun x g => g x) (l0, p0) = g (l, s.heap ref) := by rw [hdn, hfold']
    have halone : spec.alone ⟨k, .use m l0 f more ret⟩ reg = (ret (g (l, s.heap ref)).1, fun k' => if k' = k then some (g (l, s.heap ref)).2 else reg k') := by
      unfold spec.alone
      simp only [hp0, hall]
    rw [halone]
    refine ⟨rfl, ?_, hI.fresh, hI.inj, ?_, ?_, ?_, ?_⟩
    · intro a b ca cb hab h1 h2
      exact hI.pair a b ca cb hab (active_put (s := s) h0 hd h1) (active_put (s := s) h0 hd h2)
    · intro j k' m' l0' f' more' ret' ref' l' g'' rest'' h
      have hj : j ≠ i := by
        rintro rfl
        rw [put_self] at h
        injection h with h; injection h with _ h; cases h
      rw [put_other _ _ _ hj] at h
      obtain ⟨c1, dn', p0', c2, c3, c4⟩ := hI.body _ _ _ _ _ _ _ _ _ _ _ h
      refine ⟨c1, ?_⟩
      by_cases hk : k' = k
      · subst hk
        have hcp := hI.pair j i _ _ hj ⟨_, h, by intro r h; cases h⟩ ⟨_, h0, hd⟩
        obtain ⟨-, -, hcp | ⟨⟨m1, l1, f1, ret1, hs⟩, -⟩⟩ := hcp
        · exact absurd rfl hcp
        · injection hs with _ _ _ hs _
          subst hs
          have hl : dn' = [] := by
            have := congrArg List.length c2
            simp at this
            exact List.length_eq_zero_iff.1 (by omega)
          subst hl
          have hrr : ref' = ref := by
            have e1 : s.map k' = some ref' := c1
            rw [hm] at e1
            injection e1 with e1
            exact e1.symm
          subst hrr
          refine ⟨[], (g (l, s.heap ref')).2, c2, by simp, ?_⟩
          have hl0 : l' = l0' := by
            simp only [List.foldl_nil] at c4
            injection c4
          simp [St.put, St.store, hl0]
      · refine ⟨dn', p0', c2, by simp [hk, c3], ?_⟩
        rw [← c4]
        have : ref' ≠ ref := by rintro rfl; exact hothermap k' hk c1
        simp [St.put, St.store, this]
    · intro k' hk'
      rw [show spec.view ((s.store ref (g (l, s.heap ref)).2).put i ⟨k, .use m l0 f more ret⟩ (.done (ret (g (l, s.heap ref)).1))) k' =
        spec.view (s.store ref (g (l, s.heap ref)).2) k' from rfl]
      by_cases hk : k' = k
      · subst hk
        unfold spec.view St.store
        simp [hm]
      · rw [hview _ _ hk]
        simp only [hk, if_false]
        refine hI.same k' fun j m' l0' f' more' ret' ref' l' g'' rest'' h => ?_
        have hj : j ≠ i := by
          rintro rfl
          rw [h0] at h
          injection h with h; injection h with h _; injection h with h _
          exact hk h.symm
        exact hk' j m' l0' f' more' ret' ref' l' g'' rest'' (by rw [put_other _ _ _ hj]; exact h)
    · intro j c' h
      by_cases hj : j = i
      · subst hj
        rw [put_self] at h
        injection h with h; injection h with _ h; cases h
      · rw [put_other _ _ _ hj] at h; exact hI.write j c' h
    · intro j k' y n h
      by_cases hj : j = i
      · subst hj
        rw [put_self] at h
        rcases h with h | h <;> (injection h with h; injection h with _ h; cases h)
      · rw [put_other _ _ _ hj] at h; exact hI.del j k' y n h

/-- A lookup that succeeds. -/
theorem Inv.hit {s : St L P R} {reg} (hI : Inv s reg) {i : Nat} {k : Bytes} {m : R} {l0 : L} {f : L × P → L × P} {more : List (L × P → L × P)} {ret : L → R} {ref : Nat}
    (h0 : s.thr i = some (⟨k, .use m l0 f more ret⟩, .reading)) (hm : s.map k = some ref) :
    Inv (s.put i ⟨k, .use m l0 f more ret⟩ (.body ref l0 f more)) reg := by
  have hd : ∀ r, (Pc.reading : Pc L P R) ≠ .done r := by intro r h; cases h
  have hv := hI.idle h0 hd (by intro _ _ _ _ h; cases h)
  refine ⟨?_, hI.fresh, hI.inj, ?_, ?_, ?_, ?_⟩
  · intro a b ca cb hab h1 h2
    exact hI.pair a b ca cb hab (active_put h0 hd h1) (active_put h0 hd h2)
  · intro j k' m' l0' f' more' ret' ref' l' g'' rest'' h
    by_cases hj : j = i
    · subst hj
      rw [put_self] at h
      injection h with h
      injection h with h1 h2
      injection h1 with h1 h3
      injection h3 with a1 a2 a3 a4 a5
      injection h2 with b1 b2 b3 b4
      subst h1 a1 a2 a3 a4 a5 b1 b2 b3 b4
      refine ⟨hm, [], s.heap ref, rfl, ?_, rfl⟩
      rw [← hv]
      simp only [spec.view, hm, Option.map_some]
    · rw [put_other _ _ _ hj] at h
      exact hI.body _ _ _ _ _ _ _ _ _ _ _ h
  · intro k' hk'
    refine hI.same k' fun j m' l0' f' more' ret' ref' l' g'' rest'' h => ?_
    have hj : j ≠ i := by
      rintro rfl
      rw [h0] at h
      injection h with h; injection h with _ h; cases h
    exact hk' j m' l0' f' more' ret' ref' l' g'' rest'' (by rw [put_other _ _ _ hj]; exact h)
  · intro j c' h
    by_cases hj : j = i
    · subst hj
      rw [put_self] at h
      injection h with h; injection h with _ h; cases h
    · rw [put_other _ _ _ hj] at h; exact hI.write j c' h
  · intro j k' y n h
    by_cases hj : j = i
    · subst hj
      rw [put_self] at h
      rcases h with h | h <;> (injection h with h; injection h with _ h; cases h)
    · rw [put_other _ _ _ hj] at h; exact hI.del j k' y n h

/-- What a step does to the invariant and, if it returns, that it returns what the call would return alone. -/
theorem Inv.step {s s' : St L P R} {reg} (hI : Inv s reg) {i : Nat} {o : Option R} (h : Step i s s' o) :
    (o = none → Inv s' reg) ∧ ∀ r, o = some r → ∃ c, spec.calls s i = some c ∧ s'.thr i = some (c, .done r) ∧ (spec.alone c reg).1 = r ∧
      Inv s' (spec.alone c reg).2 := by
  have cc : ∀ {c pc}, s.thr i = some (c, pc) → spec.calls s i = some c := by
    intro c pc h; unfold spec.calls; rw [h]; rfl
  have nu : ∀ {k : Bytes} {o : Option P} {r : R}, ¬ spec.IsUse (⟨k, .create o r⟩ : Call L P R) := by
    rintro k o r ⟨_, _, _, _, _, h⟩; cases h
  have nr : ∀ {k : Bytes} {y n : R}, ¬ spec.IsUse (⟨k, .remove y n⟩ : Call L P R) := by
    rintro k y n ⟨_, _, _, _, _, h⟩; cases h
  cases h with
  | @refused k r h0 =>
    refine ⟨(fun h => by cases h), ?_⟩
    rintro r' h; injection h with h; subst h
    refine ⟨_, cc h0, put_self _ _ _ _, rfl, ?_⟩
    exact hI.move h0 (by intro r h; cases h) (by intro _ _ _ _ h; cases h) (by intro _ _ _ _ h; cases h) (by intro h; cases h)
      (by intro _ _ _ h; injection h with _ h; cases h)
  | @assign k p r h0 =>
    refine ⟨fun _ => ?_, (fun r h => by cases h)⟩
    exact hI.move h0 (by intro r h; cases h) (by intro _ _ _ _ h; cases h) (by intro _ _ _ _ h; cases h) (fun _ => nu)
      (by intro _ _ _ h; injection h with _ h; cases h)
  | @assigned k p r h0 =>
    refine ⟨(fun h => by cases h), ?_⟩
    rintro r' h; injection h with h; subst h
    refine ⟨_, cc h0, put_self _ _ _ _, rfl, ?_⟩
    refine hI.alone h0 (by intro r h; cases h) nu _ (by rfl) r ?_ ?_ ?_
    · intro k' r' h
      simp only [St.assign, St.store] at h ⊢
      split at h
      · injection h with h; omega
      · have := hI.fresh _ _ h; omega
    · intro k1 k2 r' h1 h2
      simp only [St.assign, St.store] at h1 h2
      split at h1 <;> split at h2
      · rename_i e1 e2; rw [e1, e2]
      · injection h1 with h1; have := hI.fresh _ _ h2; omega
      · injection h2 with h2; have := hI.fresh _ _ h1; omega
      · exact hI.inj _ _ _ h1 h2
    · intro k' hv
      simp only [spec.view, St.assign, St.store, spec.alone] at hv ⊢
      by_cases hk : k' = k
      · simp [hk]
      · simp only [hk, if_false]
        rw [← hv]
        cases hmk : s.map k' with
        | none => rfl
        | some r' =>
          have : r' ≠ s.next := by have := hI.fresh _ _ hmk; omega
          simp [this]
  | @lookupR k y n h0 =>
    refine ⟨fun _ => ?_, (fun r h => by cases h)⟩
    exact hI.move h0 (by intro r h; cases h) (by intro _ _ _ _ h; cases h) (by intro _ _ _ _ h; cases h) (by intro h; cases h)
      (by intro _ _ _ _ h; rcases h with h | h <;> cases h)
  | @absent k y n h0 hm =>
    refine ⟨(fun h => by cases h), ?_⟩
    rintro r' h; injection h with h; subst h
    have hv := hI.idle h0 (by intro r h; cases h) (by intro _ _ _ _ h; cases h)
    have hr : reg k = none := by rw [← hv]; simp only [spec.view, hm, Option.map_none]
    have ha : spec.alone (⟨k, .remove y n⟩ : Call L P R) reg = (n, reg) := by unfold spec.alone; simp only [hr]
    refine ⟨_, cc h0, put_self _ _ _ _, by rw [ha], ?_⟩
    rw [ha]
    exact hI.move h0 (by intro r h; cases h) (by intro _ _ _ _ h; cases h) (by intro _ _ _ _ h; cases h) (by intro h; cases h)
      (by intro _ _ _ _ h; rcases h with h | h <;> cases h)
  | @present k y n ref h0 hm =>
    refine ⟨fun _ => ?_, (fun r h => by cases h)⟩
    exact hI.move h0 (by intro r h; cases h) (by intro _ _ _ _ h; cases h) (by intro _ _ _ _ h; cases h) (by intro h; cases h)
      (by intro _ _ _ h _; injection h with h _; subst h; exact ⟨ref, hm⟩)
  | @delete k y n h0 =>
    refine ⟨fun _ => ?_, (fun r h => by cases h)⟩
    exact hI.move h0 (by intro r h; cases h) (by intro _ _ _ _ h; cases h) (by intro _ _ _ _ h; cases h) (fun _ => nr)
      (by intro _ _ _ h _; injection h with h _; subst h; exact hI.del i _ y n (.inl h0))
  | @deleted k y n h0 =>
    refine ⟨(fun h => by cases h), ?_⟩
    rintro r' h; injection h with h; subst h
    obtain ⟨ref, hm⟩ := hI.del i k y n (.inr h0)
    have hv := hI.idle h0 (by intro r h; cases h) (by intro _ _ _ _ h; cases h)
    have hr : reg k = some (s.heap ref) := by rw [← hv]; simp only [spec.view, hm, Option.map_some]
    have ha : spec.alone (⟨k, .remove y n⟩ : Call L P R) reg = (y, fun k' => if k' = k then none else reg k') := by unfold spec.alone; simp only [hr]
    refine ⟨_, cc h0, put_self _ _ _ _, by rw [ha], ?_⟩
    rw [ha]
    refine hI.alone h0 (by intro r h; cases h) nr _ (by rfl) y ?_ ?_ ?_
    · intro k' r' h
      simp only [St.assign] at h
      split at h
      · cases h
      · exact hI.fresh _ _ h
    · intro k1 k2 r' h1 h2
      simp only [St.assign] at h1 h2
      split at h1
      · cases h1
      split at h2
      · cases h2
      exact hI.inj _ _ _ h1 h2
    · intro k' hv
      simp only [spec.view, St.assign] at hv ⊢
      by_cases hk : k' = k
      · simp [hk]
      · simp only [hk, if_false]
        exact hv
  | @lookupU k m l0 f more ret h0 =>
    refine ⟨fun _ => ?_, (fun r h => by cases h)⟩
    exact hI.move h0 (by intro r h; cases h) (by intro _ _ _ _ h; cases h) (by intro _ _ _ _ h; cases h) (by intro h; cases h)
      (by intro _ _ _ h; injection h with _ h; cases h)
  | @miss k m l0 f more ret h0 hm =>
    refine ⟨(fun h => by cases h), ?_⟩
    rintro r' h; injection h with h; subst h
    have hv := hI.idle h0 (by intro r h; cases h) (by intro _ _ _ _ h; cases h)
    have hr : reg k = none := by rw [← hv]; simp only [spec.view, hm, Option.map_none]
    have ha : spec.alone (⟨k, .use m l0 f more ret⟩ : Call L P R) reg = (m, reg) := by unfold spec.alone; simp only [hr]
    refine ⟨_, cc h0, put_self _ _ _ _, by rw [ha], ?_⟩
    rw [ha]
    exact hI.move h0 (by intro r h; cases h) (by intro _ _ _ _ h; cases h) (by intro _ _ _ _ h; cases h) (by intro h; cases h)
      (by intro _ _ _ h; injection h with _ h; cases h)
  | @hit k m l0 f more ret ref h0 hm => exact ⟨fun _ => hI.hit h0 hm, (fun r h => by cases h)⟩
  | @work k m l0 f more ret ref l g g' rest h0 => exact ⟨fun _ => (hI.worked h0).1 g' rest rfl, (fun r h => by cases h)⟩
  | @last k m l0 f more ret ref l g h0 =>
    refine ⟨(fun h => by cases h), ?_⟩
    rintro r' h; injection h with h; subst h
    exact ⟨_, cc h0, put_self _ _ _ _, ((hI.worked h0).2 rfl).1, ((hI.worked h0).2 rfl).2⟩

theorem Step.other {s s' : St L P R} {i : Nat} {o : Option R} (h : Step i s s' o) : ∀ j, j ≠ i → s'.thr j = s.thr j := by
  intro j hj
  cases h <;> exact put_other _ _ _ hj

/-- A step belongs to a call that has not returned; it stays the same call, and has returned afterwards iff the step returns. -/
theorem Step.own {s s' : St L P R} {i : Nat} {o : Option R} (h : Step i s s' o) :
    ∃ c pc pc', s.thr i = some (c, pc) ∧ (∀ r, pc ≠ .done r) ∧ s'.thr i = some (c, pc') ∧ ∀ r, pc' = .done r ↔ o = some r := by
  cases h
  case refused h0 => exact ⟨_, _, _, h0, (by intro r h; cases h), put_self _ _ _ _, by intro r; constructor <;> (intro h; injection h with h; subst h; rfl)⟩
  case assigned h0 => exact ⟨_, _, _, h0, (by intro r h; cases h), put_self _ _ _ _, by intro r; constructor <;> (intro h; injection h with h; subst h; rfl)⟩
  case absent h0 _ => exact ⟨_, _, _, h0, (by intro r h; cases h), put_self _ _ _ _, by intro r; constructor <;> (intro h; injection h with h; subst h; rfl)⟩
  case deleted h0 => exact ⟨_, _, _, h0, (by intro r h; cases h), put_self _ _ _ _, by intro r; constructor <;> (intro h; injection h with h; subst h; rfl)⟩
  case miss h0 _ => exact ⟨_, _, _, h0, (by intro r h; cases h), put_self _ _ _ _, by intro r; constructor <;> (intro h; injection h with h; subst h; rfl)⟩
  case last h0 => exact ⟨_, _, _, h0, (by intro r h; cases h), put_self _ _ _ _, by intro r; constructor <;> (intro h; injection h with h; subst h; rfl)⟩
  case assign h0 => exact ⟨_, _, _, h0, (by intro r h; cases h), put_self _ _ _ _, by intro r; constructor <;> (intro h; cases h)⟩
  case lookupR h0 => exact ⟨_, _, _, h0, (by intro r h; cases h), put_self _ _ _ _, by intro r; constructor <;> (intro h; cases h)⟩
  case present h0 _ => exact ⟨_, _, _, h0, (by intro r h; cases h), put_self _ _ _ _, by intro r; constructor <;> (intro h; cases h)⟩
  case delete h0 => exact ⟨_, _, _, h0, (by intro r h; cases h), put_self _ _ _ _, by intro r; constructor <;> (intro h; cases h)⟩
  case lookupU h0 => exact ⟨_, _, _, h0, (by intro r h; cases h), put_self _ _ _ _, by intro r; constructor <;> (intro h; cases h)⟩
  case hit h0 _ => exact ⟨_, _, _, h0, (by intro r h; cases h), put_self _ _ _ _, by intro r; constructor <;> (intro h; cases h)⟩
  case work h0 => exact ⟨_, _, _, h0, (by intro r h; cases h), put_self _ _ _ _, by intro r; constructor <;> (intro h; cases h)⟩

theorem Step.calls {s s' : St L P R} {i : Nat} {o : Option R} (h : Step i s s' o) : spec.calls s' = spec.calls s := by
  funext j
  unfold spec.calls
  by_cases hj : j = i
  · subst hj
    obtain ⟨c, pc, pc', h1, -, h2, -⟩ := h.own
    rw [h1, h2]; rfl
  · rw [h.other j hj]

theorem Serial.mono {calls calls' : Nat → Option (Call L P R)} (hc : ∀ i c, calls i = some c → calls' i = some c) {h : List (Nat × R)} {reg}
    (hs : spec.Serial calls h reg) : spec.Serial calls' h reg := by
  induction hs with
  | nil => exact .nil
  | snoc _ hi ih => exact .snoc ih (hc _ _ hi)

theorem run_inv {h0 : Nat → P} {h : List (Nat × R)} {s : St L P R} (hr : Run spec.Polite h0 h s) :
    ∃ reg, spec.Serial (spec.calls s) h reg ∧ Inv s reg := by
  induction hr with
  | init =>
    refine ⟨_, .nil, ?_⟩
    refine ⟨?_, ?_, ?_, ?_, ?_, ?_, ?_⟩
    · rintro i j c c' _ ⟨_, h, _⟩; cases h
    · intro _ _ h; cases h
    · intro _ _ _ h; cases h
    · intro _ _ _ _ _ _ _ _ _ _ _ h; cases h
    · intro _ _; rfl
    · intro _ _ h; cases h
    · intro _ _ _ _ h; rcases h with h | h <;> cases h
  | @call h s i c _ hn hp ih =>
    obtain ⟨reg, hs, hI⟩ := ih
    refine ⟨reg, Serial.mono ?_ hs, hI.call hn hp⟩
    intro j c' hj
    unfold spec.calls at hj ⊢
    by_cases hji : j = i
    · subst hji; rw [hn] at hj; cases hj
    · rw [put_other _ _ _ hji]; exact hj
  | @step h s s' i _ hst ih =>
    obtain ⟨reg, hs, hI⟩ := ih
    exact ⟨reg, by rw [hst.calls]; exact hs, (hI.step hst).1 rfl⟩
  | @ret h s s' r i _ hst ih =>
    obtain ⟨reg, hs, hI⟩ := ih
    obtain ⟨c, h1, -, h3, h4⟩ := (hI.step hst).2 r rfl
    refine ⟨_, ?_, h4⟩
    rw [hst.calls, ← h3]
    exact .snoc hs h1

/-- The calls of `h`, numbers and return values, made one after the other from the empty registry. -/
inductive spec.InTurn {Op : Type} (run : Op → (Bytes → Option P) → R × (Bytes → Option P)) (ops : Nat → Op) : List (Nat × R) → (Bytes → Option P) → Prop
  | nil : InTurn run ops [] (fun _ => none)
  | snoc {h reg i r reg'} : InTurn run ops h reg → run (ops i) reg = (r, reg') → InTurn run ops (h ++ [(i, r)]) reg'

theorem Run.weaken {allow allow' : Nat → St L P R → Call L P R → Prop} {h0 : Nat → P} (J : St L P R → Prop)
    (hJ : ∀ h s, Run allow h0 h s → J s) (ha : ∀ i s c, J s → allow i s c → allow' i s c) {h : List (Nat × R)} {s : St L P R}
    (hr : Run allow h0 h s) : Run allow' h0 h s := by
  induction hr with
  | init => exact .init
  | call i c hr hn hp ih => exact .call i c ih hn (ha _ _ _ (hJ _ _ hr) hp)
  | step i _ hst ih => exact .step i ih hst
  | ret i _ hst ih => exact .ret i ih hst

theorem calls_allowed {allow : Nat → St L P R → Call L P R → Prop} {h0 : Nat → P} (Q : Nat → Call L P R → Prop) (hQ : ∀ i s c, allow i s c → Q i c)
    {h : List (Nat × R)} {s : St L P R} (hr : Run allow h0 h s) : ∀ i c, spec.calls s i = some c → Q i c := by
  induction hr with
  | init => intro i c h; cases h
  | @call h s i c _ hn hp ih =>
    intro j c' hj
    unfold spec.calls at hj
    by_cases hji : j = i
    · subst hji
      rw [put_self] at hj
      injection hj with hj
      subst hj
      exact hQ _ _ _ hp
    · rw [put_other _ _ _ hji] at hj
      exact ih j c' hj
  | step i _ hst ih => rw [hst.calls]; exact ih
  | ret i _ hst ih => rw [hst.calls]; exact ih

/-- **C102.** If callers make a call only while those in progress are compatible with it, no access to the map ever overlaps a change
of it. -/
theorem C102_no_race {h0 : Nat → P} {h : List (Nat × R)} {s : St L P R} (hr : Run spec.Polite h0 h s) : ¬ spec.Race s := by
  obtain ⟨reg, -, hI⟩ := run_inv hr
  rintro ⟨i, j, ci, cj, pj, hij, hi, hj, hp⟩
  refine hI.write i ci hi (hI.pair i j ci cj hij ⟨_, hi, by intro r h; cases h⟩ ⟨_, hj, ?_⟩).1
  rcases hp with rfl | rfl <;> (intro r h; cases h)

/-- **C102.** And then the calls act as if made one after the other, in the order in which they return: each returns what it would return
there, and when no call is in progress the parties registered are those of that sequence. -/
theorem C102_as_if_in_turn {h0 : Nat → P} {h : List (Nat × R)} {s : St L P R} (hr : Run spec.Polite h0 h s) :
    ∃ reg, spec.Serial (spec.calls s) h reg ∧ ((∀ i c, ¬ spec.Active s i c) → ∀ k, spec.view s k = reg k) := by
  obtain ⟨reg, hs, hI⟩ := run_inv hr
  refine ⟨reg, hs, fun hn k => hI.same k fun i m l0 f more ret ref l g rest h => ?_⟩
  exact absurd ⟨_, h, by intro r h; cases h⟩ (hn i _)

/-- Call number i is `ops i`, and is made only while it may overlap with all calls in progress. -/
def spec.Careful {Op : Type} (key : Op → Bytes) (code : Op → Code L P R) (ops : Nat → Op) (may : Op → Op → Prop) (i : Nat) (s : St L P R)
    (c : Call L P R) : Prop := c = ⟨key (ops i), code (ops i)⟩ ∧ ∀ j c', spec.Active s j c' → may (ops i) (ops j)

/-- The two theorems for a set of operations given as functions on registries. -/
theorem careful {Op : Type} {key : Op → Bytes} {code : Op → Code L P R} {run : Op → (Bytes → Option P) → R × (Bytes → Option P)}
    (hcode : ∀ op reg, spec.alone ⟨key op, code op⟩ reg = run op reg) {may : Op → Op → Prop}
    (hmay : ∀ op op', may op op' → spec.Compat (⟨key op, code op⟩ : Call L P R) ⟨key op', code op'⟩) {ops : Nat → Op} {h0 : Nat → P}
    {h : List (Nat × R)} {s : St L P R} (hr : Run (spec.Careful key code ops may) h0 h s) :
    ¬ spec.Race s ∧ ∃ reg, spec.InTurn run ops h reg ∧ ((∀ i c, ¬ spec.Active s i c) → ∀ k, spec.view s k = reg k) := by
  have hQ : ∀ h s, Run (spec.Careful key code ops may) h0 h s → ∀ i c, spec.calls s i = some c → c = ⟨key (ops i), code (ops i)⟩ :=
    fun h s hr => calls_allowed (fun i c => c = ⟨key (ops i), code (ops i)⟩) (fun _ _ _ h => h.1) hr
  have hr' : Run spec.Polite h0 h s := by
    refine hr.weaken _ hQ ?_
    rintro i s c hJ ⟨rfl, hc⟩ j c' hj
    obtain ⟨pc, h1, h2⟩ := hj
    have e := hJ j c' (by unfold spec.calls; rw [h1]; rfl)
    rw [e]
    exact hmay _ _ (hc j c' ⟨pc, h1, h2⟩)
  refine ⟨C102_no_race hr', ?_⟩
  obtain ⟨reg, hs, hv⟩ := C102_as_if_in_turn hr'
  refine ⟨reg, ?_, hv⟩
  have hq := hQ _ _ hr
  clear hv hr hr'
  induction hs with
  | nil => exact .nil
  | @snoc h reg i c hs hi ih =>
    have e := hq i c hi
    subst e
    exact .snoc ih (by rw [← hcode])

/-- **C102.** The sequence consists of the calls that have returned, each once, with what they returned. -/
theorem C102_each_once {allow : Nat → St L P R → Call L P R → Prop} {h0 : Nat → P} {h : List (Nat × R)} {s : St L P R} (hr : Run allow h0 h s) :
    (∀ i r, (i, r) ∈ h ↔ ∃ c, s.thr i = some (c, .done r)) ∧ (h.map Prod.fst).Nodup := by
  induction hr with
  | init => simp
  | @call h s i c _ hn hp ih =>
    refine ⟨fun j r => ?_, ih.2⟩
    rw [ih.1]
    by_cases hj : j = i
    · subst hj
      rw [hn, put_self]
      constructor
      · rintro ⟨_, h⟩; cases h
      · rintro ⟨_, h⟩; injection h with h; injection h with _ h; cases h
    · rw [put_other _ _ _ hj]
  | @step h s s' i _ hst ih =>
    refine ⟨fun j r => ?_, ih.2⟩
    rw [ih.1]
    by_cases hj : j = i
    · subst hj
      obtain ⟨c, pc, pc', h1, h2, h3, h4⟩ := hst.own
      rw [h1, h3]
      constructor
      · rintro ⟨_, h⟩; injection h with h; injection h with _ h; exact absurd h (h2 r)
      · rintro ⟨_, h⟩; injection h with h; injection h with _ h; have := (h4 r).1 h; cases this
    · rw [hst.other j hj]
  | @ret h s s' r i _ hst ih =>
    obtain ⟨c, pc, pc', h1, h2, h3, h4⟩ := hst.own
    have hni : ∀ r', (i, r') ∉ h := by
      intro r' hm
      obtain ⟨c', hc'⟩ := (ih.1 i r').1 hm
      rw [h1] at hc'
      injection hc' with hc'; injection hc' with _ hc'
      exact h2 r' hc'
    constructor
    · intro j r'
      rw [List.mem_append, ih.1]
      by_cases hj : j = i
      · subst hj
        rw [h1, h3]
        constructor
        · rintro (⟨_, h⟩ | h)
          · injection h with h; injection h with _ h; exact absurd h (h2 r')
          · rw [List.mem_singleton] at h
            injection h with _ h
            exact ⟨c, by rw [(h4 r').2 (by rw [h])]⟩
        · rintro ⟨_, h⟩
          injection h with h; injection h with _ h
          have := (h4 r').1 h
          injection this with this
          right; rw [this]; simp
      · rw [hst.other j hj]
        constructor
        · rintro (h | h)
          · exact h
          · rw [List.mem_singleton] at h; injection h with h _; exact absurd h hj
        · exact fun h => .inl h
    · rw [List.map_append, List.nodup_append]
      refine ⟨ih.2, by simp, ?_⟩
      intro a ha b hb
      simp only [List.map_cons, List.map_nil, List.mem_singleton] at hb
      subst hb
      rintro rfl
      rw [List.mem_map] at ha
      obtain ⟨⟨j, r'⟩, hm, rfl⟩ := ha
      exact hni r' hm

/-- **C102, deviation.** Nothing else is safe: from any state without calls in progress, two calls that create parties, or one that creates
a party and one on an existing party, can get into the map at the same time, whatever their keys are. -/
theorem C102_create_races {h0 : Nat → P} {h : List (Nat × R)} {s : St L P R} (hr : Run (fun _ _ _ => True) h0 h s) (i j : Nat) (hij : i ≠ j)
    (hi : s.thr i = none) (hj : s.thr j = none) (k k' : Bytes) (p : P) (r : R) (c' : Call L P R)
    (hc' : (∃ p' r', c' = ⟨k', .create (some p') r'⟩) ∨ (∃ m l0 f more ret, c' = ⟨k', .use m l0 f more ret⟩) ∨ ∃ y n, c' = ⟨k', .remove y n⟩) :
    ∃ s', Run (fun _ _ _ => True) h0 h s' ∧ spec.Race s' ∧ s'.thr i = some (⟨k, .create (some p) r⟩, .writing) ∧ ∃ pc, s'.thr j = some (c', pc) := by
  have hji : j ≠ i := Ne.symm hij
  have r1 := Run.call i ⟨k, .create (some p) r⟩ hr hi trivial
  have r2 := Run.call j c' r1 (by rw [put_other _ _ _ hji]; exact hj) trivial
  have e2 : ((s.put i ⟨k, .create (some p) r⟩ .ready).put j c' .ready).thr i = some (⟨k, .create (some p) r⟩, .ready) := by
    rw [put_other _ _ _ hij, put_self]
  have r3 := Run.step i r2 (.assign e2)
  generalize hs3 : ((s.put i ⟨k, .create (some p) r⟩ .ready).put j c' .ready).put i ⟨k, .create (some p) r⟩ .writing = s3 at r3
  have t1 : s3.thr i = some (⟨k, .create (some p) r⟩, .writing) := by rw [← hs3, put_self]
  have t2 : s3.thr j = some (c', .ready) := by rw [← hs3, put_other _ _ _ hji, put_self]
  have fin : ∀ pc, (pc = .reading ∨ pc = .writing) → Run (fun _ _ _ => True) h0 h (s3.put j c' pc) →
      ∃ s', Run (fun _ _ _ => True) h0 h s' ∧ spec.Race s' ∧ s'.thr i = some (⟨k, .create (some p) r⟩, .writing) ∧ ∃ pc, s'.thr j = some (c', pc) := by
    intro pc hpc hrun
    have u1 : (s3.put j c' pc).thr i = some (⟨k, .create (some p) r⟩, .writing) := by rw [put_other _ _ _ hij]; exact t1
    have u2 : (s3.put j c' pc).thr j = some (c', pc) := put_self _ _ _ _
    exact ⟨_, hrun, ⟨i, j, _, _, pc, hij, u1, u2, hpc⟩, u1, pc, u2⟩
  rcases hc' with ⟨p', r', rfl⟩ | ⟨m, l0, f, more, ret, rfl⟩ | ⟨y, n, rfl⟩
  · exact fin .writing (.inr rfl) (Run.step j r3 (.assign t2))
  · exact fin .reading (.inl rfl) (Run.step j r3 (.lookupU t2))
  · exact fin .reading (.inl rfl) (Run.step j r3 (.lookupR t2))

end Tss.Calls
