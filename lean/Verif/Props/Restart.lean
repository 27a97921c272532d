import Verif.Model.Restart
import Verif.Props.World
import Verif.Props.CallsApi
import Verif.Props.Onsign
import Verif.Props.OnsignNew
/-
C103: crashes and restarts of the process.
-/
namespace Tss.World
open Tss Text

namespace spec

/-- The calls since the last restart. -/
def sinceRestart (evs : List Event) : List Op :=
  evs.foldl (fun l ev => match ev with | .call op => l ++ [op] | .restart => []) []

end spec

theorem runAll_snoc (e : Env) (ops : List Op) (op : Op) (w : World) : runAll e (ops ++ [op]) w = (op.run e (runAll e ops w)).2 := by
  induction ops generalizing w with
  | nil => rfl
  | cons o t ih => exact ih _

/-- **C103.** Wherever restarts happen, the state is that of a process that has seen only the calls since the last one. -/
theorem C103_only_since_restart (e : Env) (evs : List Event) : runEvents e evs = runAll e (spec.sinceRestart evs) World.empty := by
  unfold runEvents spec.sinceRestart
  suffices h : ∀ (l : List Op) (w : World), w = runAll e l World.empty → evs.foldl (Event.run e) w =
      runAll e (evs.foldl (fun l ev => match ev with | .call op => l ++ [op] | .restart => []) l) World.empty from h [] _ rfl
  induction evs with
  | nil => exact fun l w h => h
  | cons ev t ih =>
    intro l w h
    rw [List.foldl_cons, List.foldl_cons]
    refine ih _ _ ?_
    cases ev with
    | call op => subst h; exact (runAll_snoc e l op _).symm
    | restart => rfl

/-- **C103.** So whatever is shown for all histories of calls holds with restarts anywhere in between. -/
theorem C103_reachable (e : Env) (evs : List Event) : Keygen.Reach e.kg (runEvents e evs).kg ∧ Onsign.Reach e.sg (runEvents e evs).sg := by
  unfold runEvents
  suffices h : ∀ w : World, Keygen.Reach e.kg w.kg ∧ Onsign.Reach e.sg w.sg →
      Keygen.Reach e.kg (evs.foldl (Event.run e) w).kg ∧ Onsign.Reach e.sg (evs.foldl (Event.run e) w).sg from h _ ⟨.init, .init⟩
  induction evs with
  | nil => exact fun w h => h
  | cons ev t ih =>
    intro w h
    refine ih _ ?_
    cases ev with
    | restart => exact ⟨.init, .init⟩
    | call op =>
      cases op with
      | kg op => exact ⟨.step op h.1, h.2⟩
      | sg op => exact ⟨h.1, .step op h.2⟩

/-- **C103.** For instance: with restarts at any points, whatever the last signing call returns verifies. -/
theorem C103_released_signature_verifies (e : Env) (evs : List Event) (key out : Bytes) (r' : Onsign.Reg)
    (h : Onsign.OnsignFinalExec e.sg (runEvents e evs).sg key = (.ok out, r')) :
    ∃ p A sd, (runEvents e evs).sg key = some p ∧ p.keys.eddsaPub = some A ∧ e.sg.jsonSig sd = some out ∧
      Onsign.spec.Verifies e.sg.sha512 (Ed.ecPointToEncodedBytes A.x A.y) (intBytes p.m) sd.signature := by
  obtain ⟨p, A, sd, h1, h2, h3, h4, -⟩ := Onsign.C54_released_signature_verifies (C103_reachable e evs).2 h
  exact ⟨p, A, sd, h1, h2, h3, h4⟩

/-- **C103.** After a restart every session is gone: calls with a key are refused, with an error text, until a party is created under it. -/
theorem C103_sessions_are_gone (e : Env) (evs : List Event) (b : Bool) (key : Bytes) (ops : List Op)
    (hn : ∀ op ∈ ops, op.uses b key → op.isNew = false) :
    ∀ o ∈ answers e b key ops (runEvents e (evs ++ [.restart])), spec.Refused o := by
  have h0 : runEvents e (evs ++ [.restart]) = World.empty := by
    unfold runEvents; rw [List.foldl_append]; rfl
  rw [h0]
  have ha : spec.Absent World.empty b key := by cases b <;> rfl
  generalize World.empty = w at ha
  clear h0
  induction ops generalizing w with
  | nil => intro o ho; cases ho
  | cons op t ih =>
    have hs := absent_step e op w b key ha (hn op (by simp))
    have iht := ih (fun o ho => hn o (by simp [ho])) _ hs
    intro o ho
    unfold answers at ho
    split at ho
    · next hu =>
      rcases List.mem_cons.mp ho with rfl | ho
      · exact (C11_unknown_key e op w (hn op (by simp) hu) (by rw [hu.1, hu.2]; exact ha)).1
      · exact iht o ho
    · exact iht o ho

/-- The call returned Ok. -/
def spec.Ok : Out → Prop
  | .kg (.res (.ok _)) => True
  | .sg (.res (.ok _)) => True
  | _ => False

theorem kg_new (k : Bytes) (i n : Int) (ids : List Bytes) (root : Bytes) (r r' : Keygen.Reg) :
    (Keygen.NewLocalParty r k i n ids root).1 = (Keygen.NewLocalParty r' k i n ids root).1 ∧
    ((Keygen.NewLocalParty r k i n ids root).1 = .ok () →
      (Keygen.NewLocalParty r k i n ids root).2 k = (Keygen.NewLocalParty r' k i n ids root).2 k) := by
  obtain ⟨obj, ret, h⟩ := Keygen.new_reg_form k i n ids root
  refine ⟨by rw [h, h], fun hok => ?_⟩
  cases obj with
  | some p => rw [h, h]; simp
  | none =>
    have h0 := h fun _ => none
    rw [h] at hok
    have hok : ret = .ok () := hok
    subst hok
    obtain ⟨p, b, hp, -⟩ := Keygen.C13_new_party _ _ _ _ _ _ _ h0
    cases hp

theorem sg_new (e : Onsign.Env) (k : Bytes) (a : Onsign.NewArgs) (r r' : Onsign.Reg) :
    (Onsign.NewLocalParty e r k a).1 = (Onsign.NewLocalParty e r' k a).1 ∧
    ((Onsign.NewLocalParty e r k a).1 = .ok () → (Onsign.NewLocalParty e r k a).2 k = (Onsign.NewLocalParty e r' k a).2 k) := by
  obtain ⟨obj, ret, h⟩ := Onsign.new_reg_form e k a
  refine ⟨by rw [h, h], fun hok => ?_⟩
  cases obj with
  | some p => rw [h, h]; simp
  | none =>
    have h0 := h fun _ => none
    rw [h] at hok
    have hok : ret = .ok () := hok
    subst hok
    obtain ⟨_, _, _, _, p, _, _, _, _, _, _, _, _, _, _, _, _, _, hp, -⟩ := Onsign.C50_created h0
    have := congrFun hp k
    rw [Onsign.set_same] at this
    cases this

/-- **C103.** What a call that creates a party returns, and the party it makes if it returns Ok, depends on its arguments only: the text that
key generation returned before a restart is as good afterwards. -/
theorem C103_creation_independent (e : Env) (op : Op) (hop : op.isNew = true) (w w' : World) :
    (op.run e w).1 = (op.run e w').1 ∧
    (spec.Ok (op.run e w).1 → cell (op.run e w).2 op.isKg op.key = cell (op.run e w').2 op.isKg op.key) := by
  cases op with
  | kg op =>
    cases op with
    | new k i n ids root =>
      obtain ⟨h1, h2⟩ := kg_new k i n ids root w.kg w'.kg
      constructor
      · show Out.kg (.res (Keygen.noData _)) = Out.kg (.res (Keygen.noData _)); rw [h1]
      · intro h
        show Sum.inl _ = Sum.inl _
        refine congrArg Sum.inl (h2 ?_)
        change spec.Ok (Out.kg (.res (Keygen.noData (Keygen.NewLocalParty w.kg k i n ids root).1))) at h
        cases hc : (Keygen.NewLocalParty w.kg k i n ids root).1 with
        | ok u => rfl
        | err er => rw [hc] at h; exact h.elim
        | panic => rw [hc] at h; exact h.elim
    | _ => cases hop
  | sg op =>
    cases op with
    | new k a =>
      obtain ⟨h1, h2⟩ := sg_new e.sg k a w.sg w'.sg
      constructor
      · show Out.sg (.res (Onsign.noData _)) = Out.sg (.res (Onsign.noData _)); rw [h1]
      · intro h
        show Sum.inr _ = Sum.inr _
        refine congrArg Sum.inr (h2 ?_)
        change spec.Ok (Out.sg (.res (Onsign.noData (Onsign.NewLocalParty e.sg w.sg k a).1))) at h
        cases hc : (Onsign.NewLocalParty e.sg w.sg k a).1 with
        | ok u => rfl
        | err er => rw [hc] at h; exact h.elim
        | panic => rw [hc] at h; exact h.elim
    | _ => cases hop

/-- **C103.** From a creation that returned Ok on, a party answers all calls the same, whatever happened to the process before - restarts, an
earlier party of that name in the middle of a session, sessions of others. -/
theorem C103_fresh_start (e : Env) (op : Op) (hop : op.isNew = true) (evs evs' : List Event) (hok : spec.Ok (op.run e (runEvents e evs)).1)
    (ops : List Op) :
    answers e op.isKg op.key (op :: ops) (runEvents e evs) = answers e op.isKg op.key (op :: ops) (runEvents e evs') ∧
    cell (runAll e (op :: ops) (runEvents e evs)) op.isKg op.key = cell (runAll e (op :: ops) (runEvents e evs')) op.isKg op.key := by
  generalize runEvents e evs = w at hok
  generalize runEvents e evs' = w'
  obtain ⟨h1, h2⟩ := C103_creation_independent e op hop w w'
  have h3 := C10_noninterference e op.isKg op.key ops _ _ (h2 hok)
  have h4 := C10_noninterference e op.isKg op.key ops _ _ (rfl : cell (op.run e w').2 op.isKg op.key = _)
  constructor
  · unfold answers
    rw [if_pos ⟨rfl, rfl⟩, if_pos ⟨rfl, rfl⟩, h1, h3.1, ← h4.1]
  · exact h3.2.trans h4.2.symm

/-- **C103, example.** A key-generation party is created, runs its first round, the process restarts twice and the party is created again:
the creation returns Ok. -/
theorem C103_example (e : Env) (rnd : Keygen.Rand1) : ∃ op : Op, op.isNew = true ∧
    spec.Ok (op.run e (runEvents e [.call op, .call (.kg (.exec1 op.key rnd)), .restart, .restart])).1 := by
  refine ⟨.kg (.new (ascii "k") 0 1 [ascii "7"] (ascii "0a")), rfl, ?_⟩
  have : (Keygen.NewLocalParty (fun _ => none) (ascii "k") 0 1 [ascii "7"] (ascii "0a")).1 = .ok () := by decide +kernel
  show spec.Ok (.kg (.res (Keygen.noData (Keygen.NewLocalParty (fun _ => none) (ascii "k") 0 1 [ascii "7"] (ascii "0a")).1)))
  rw [this]
  exact trivial

end Tss.World
