import Verif.Model.CurveReg
import Mathlib.Data.List.Induction
/-
C123: registered curves and the global curve (tss/curve.go).
-/
namespace Tss.CurveReg
open Tss ECPoint

/-- What was registered last under a name. -/
def spec.last (s d : RegCurve) (name : String) : List Op → Option RegCurve
  | [] => if name = "secp256k1" then some s else if name = "ed25519" then some d else none
  | .register n c :: earlier => if n = name then some c else spec.last s d name earlier
  | .set _ :: earlier => spec.last s d name earlier

/-- The curve set last. -/
def spec.current (s : RegCurve) : List Op → RegCurve
  | [] => s
  | .set (some c) :: _ => c
  | .set none :: earlier => spec.current s earlier
  | .register _ _ :: earlier => spec.current s earlier

theorem lookup_filter_other {n name : String} (h : name ≠ n) : ∀ l : List (String × RegCurve),
    (l.filter fun e => e.1 ≠ n).lookup name = l.lookup name
  | [] => rfl
  | (a, c) :: t => by
    by_cases ha : a = n
    · subst ha
      rw [List.filter_cons_of_neg (by simp), lookup_filter_other h t, List.lookup_cons]
      rw [beq_eq_false_iff_ne.mpr h]
    · rw [List.filter_cons_of_pos (by simpa using ha), List.lookup_cons, List.lookup_cons, lookup_filter_other h t]

/-- C123: after RegisterCurve the name gives the curve, all other names what they gave, and the global curve is the same. -/
theorem C123_register (env : CurveEnv) (n : String) (c : RegCurve) :
    getCurveByName (registerCurve env n c) n = some c ∧
    (∀ m, m ≠ n → getCurveByName (registerCurve env n c) m = getCurveByName env m) ∧ EC (registerCurve env n c) = EC env := by
  refine ⟨?_, fun m hm => ?_, rfl⟩
  · unfold getCurveByName registerCurve
    rw [List.lookup_cons, beq_self_eq_true]
  · unfold getCurveByName registerCurve
    rw [List.lookup_cons, beq_eq_false_iff_ne.mpr hm]
    exact lookup_filter_other hm _

theorem run_concat (s d : RegCurve) (ops : List Op) (op : Op) : runAll s d (ops ++ [op]) = op.run (runAll s d ops) := by
  unfold runAll; rw [List.foldl_append]; rfl

/-- C123: after every history of RegisterCurve and SetCurve calls each name gives what was registered last under it, or the curve of the
start, and EC the curve set last; a call with a nil curve changes nothing. -/
theorem C123_history (s d : RegCurve) (ops : List Op) (name : String) :
    getCurveByName (runAll s d ops) name = spec.last s d name ops.reverse ∧ EC (runAll s d ops) = spec.current s ops.reverse := by
  induction ops using List.reverseRecOn with
  | nil =>
    refine ⟨?_, rfl⟩
    show [("secp256k1", s), ("ed25519", d)].lookup name = _
    unfold spec.last
    rw [List.lookup_cons, List.lookup_cons]
    by_cases h1 : name = "secp256k1"
    · subst h1; rfl
    · rw [beq_eq_false_iff_ne.mpr h1, if_neg h1]
      by_cases h2 : name = "ed25519"
      · subst h2; rfl
      · rw [beq_eq_false_iff_ne.mpr h2, if_neg h2]; rfl
  | append_singleton ops op ih =>
    rw [run_concat, List.reverse_append, List.reverse_singleton, List.singleton_append]
    cases op with
    | register n c =>
      obtain ⟨h1, h2, h3⟩ := C123_register (runAll s d ops) n c
      refine ⟨?_, h3.trans ih.2⟩
      show getCurveByName (registerCurve (runAll s d ops) n c) name = _
      unfold spec.last
      by_cases hn : n = name
      · subst hn; rw [if_pos rfl]; exact h1
      · rw [if_neg hn, h2 name (Ne.symm hn)]; exact ih.1
    | set c =>
      cases c with
      | none => exact ih
      | some c => exact ⟨ih.1, rfl⟩

/-- C123: no name is ever in the registry twice. -/
theorem C123_names_once (s d : RegCurve) (ops : List Op) : ((runAll s d ops).registry.map Prod.fst).Nodup := by
  induction ops using List.reverseRecOn with
  | nil => show ["secp256k1", "ed25519"].Nodup; decide
  | append_singleton ops op ih =>
    rw [run_concat]
    cases op with
    | register n c =>
      show (((n, c) :: (runAll s d ops).registry.filter fun e => e.1 ≠ n).map Prod.fst).Nodup
      rw [List.map_cons, List.nodup_cons]
      refine ⟨?_, ih.sublist (List.filter_sublist.map _)⟩
      intro hm
      obtain ⟨e, he, h⟩ := List.mem_map.mp hm
      rw [List.mem_filter] at he
      exact (of_decide_eq_true he.2) h
    | set c =>
      cases c with
      | none => exact ih
      | some c => exact ih

theorem name_loop (ty : Nat) : ∀ l : List (String × RegCurve),
    (∀ n, getCurveNameLoop ty l = some n → ∃ c, (n, c) ∈ l ∧ c.ty = ty) ∧
    (getCurveNameLoop ty l = none ↔ ∀ e ∈ l, e.2.ty ≠ ty)
  | [] => by unfold getCurveNameLoop; simp
  | (n, c) :: t => by
    obtain ⟨h1, h2⟩ := name_loop ty t
    unfold getCurveNameLoop
    by_cases h : ty = c.ty
    · rw [if_pos h]
      refine ⟨fun m hm => ?_, ?_⟩
      · injection hm with hm; subst hm; exact ⟨c, List.mem_cons_self .., h.symm⟩
      · constructor
        · intro h'; cases h'
        · intro h'; exact absurd h.symm (h' (n, c) (List.mem_cons_self ..))
    · rw [if_neg h]
      refine ⟨fun m hm => ?_, ?_⟩
      · obtain ⟨c', hc, ht⟩ := h1 m hm; exact ⟨c', List.mem_cons_of_mem _ hc, ht⟩
      · rw [h2]
        constructor
        · intro h' e he
          rcases List.mem_cons.mp he with rfl | he
          · exact fun hh => h hh.symm
          · exact h' e he
        · exact fun h' e he => h' e (List.mem_cons_of_mem _ he)

theorem lookup_of_mem {name : String} {c : RegCurve} : ∀ {l : List (String × RegCurve)}, (l.map Prod.fst).Nodup → (name, c) ∈ l →
    l.lookup name = some c
  | [], _, h => by cases h
  | (a, b) :: t, hn, h => by
    rw [List.map_cons, List.nodup_cons] at hn
    rw [List.lookup_cons]
    rcases List.mem_cons.mp h with e | h'
    · injection e with e1 e2; subst e1 e2; rw [beq_self_eq_true]
    · have hne : name ≠ a := by rintro rfl; exact hn.1 (List.mem_map.mpr ⟨_, h', rfl⟩)
      rw [beq_eq_false_iff_ne.mpr hne]
      exact lookup_of_mem hn.2 h'

theorem mem_of_lookup {name : String} {c : RegCurve} : ∀ {l : List (String × RegCurve)}, l.lookup name = some c → (name, c) ∈ l
  | [], h => by cases h
  | (a, b) :: t, h => by
    rw [List.lookup_cons] at h
    by_cases he : name = a
    · subst he; rw [beq_self_eq_true] at h; injection h with h; subst h; exact List.mem_cons_self ..
    · rw [beq_eq_false_iff_ne.mpr he] at h; exact List.mem_cons_of_mem _ (mem_of_lookup h)

/-- C123: in every history and every iteration order of the map, GetCurveName finds a name exactly if some name gives a curve of the same
Go type, and the name it answers gives such a curve. -/
theorem C123_name (s d : RegCurve) (ops : List Op) (order : List (String × RegCurve)) (hp : order.Perm (runAll s d ops).registry) (c : RegCurve) :
    (∀ n, getCurveName ⟨EC (runAll s d ops), order⟩ c = some n →
      ∃ c', getCurveByName (runAll s d ops) n = some c' ∧ c'.ty = c.ty) ∧
    (getCurveName ⟨EC (runAll s d ops), order⟩ c = none ↔ ∀ n c', getCurveByName (runAll s d ops) n = some c' → c'.ty ≠ c.ty) := by
  have hn := C123_names_once s d ops
  obtain ⟨h1, h2⟩ := name_loop c.ty order
  refine ⟨fun n h => ?_, ?_⟩
  · obtain ⟨c', hm, ht⟩ := h1 n h
    exact ⟨c', lookup_of_mem hn (hp.mem_iff.mp hm), ht⟩
  · refine h2.trans ⟨fun h n c' hc => h (n, c') (hp.mem_iff.mpr (mem_of_lookup hc)), fun h e he => ?_⟩
    exact h e.1 e.2 (lookup_of_mem hn (hp.mem_iff.mp he))

/-- C123: so if only one name gives a curve of that type, it is the answer in every order; and if two do, either is the answer in some
order. -/
theorem C123_name_depends (s d : RegCurve) (ops : List Op) (c a : RegCurve) (n : String) (ha : getCurveByName (runAll s d ops) n = some a)
    (hat : a.ty = c.ty) :
    ((∀ m b, getCurveByName (runAll s d ops) m = some b → b.ty = c.ty → m = n) →
      ∀ order : List (String × RegCurve), order.Perm (runAll s d ops).registry → getCurveName ⟨EC (runAll s d ops), order⟩ c = some n) ∧
    ∃ order : List (String × RegCurve), order.Perm (runAll s d ops).registry ∧ getCurveName ⟨EC (runAll s d ops), order⟩ c = some n := by
  constructor
  · intro huniq order hp
    obtain ⟨h1, h2⟩ := C123_name s d ops order hp c
    cases h : getCurveName ⟨EC (runAll s d ops), order⟩ c with
    | none => exact absurd hat (h2.mp h n a ha)
    | some m =>
      obtain ⟨b, hb, hbt⟩ := h1 m h
      rw [huniq m b hb hbt]
  · have hm : (n, a) ∈ (runAll s d ops).registry := mem_of_lookup ha
    obtain ⟨l1, l2, hl⟩ := List.append_of_mem hm
    refine ⟨(n, a) :: (l1 ++ l2), ?_, ?_⟩
    · rw [hl]; exact List.perm_middle.symm
    · unfold getCurveName getCurveNameLoop
      rw [if_pos hat.symm]

/-- C123: with the two curves of the start, which are of different types, each is known by its own name until one of the names is registered
again; a curve of another type is not known. -/
theorem C123_start (s d : RegCurve) (hsd : s.ty ≠ d.ty) (order : List (String × RegCurve)) (hp : order.Perm (runAll s d []).registry) :
    getCurveName ⟨s, order⟩ s = some "secp256k1" ∧ getCurveName ⟨s, order⟩ d = some "ed25519" ∧
    ∀ c : RegCurve, c.ty ≠ s.ty → c.ty ≠ d.ty → getCurveName ⟨s, order⟩ c = none := by
  have hreg : ∀ n c, getCurveByName (runAll s d []) n = some c ↔ (n = "secp256k1" ∧ c = s) ∨ (n = "ed25519" ∧ c = d) := by
    intro n c
    rw [(C123_history s d [] n).1]
    show spec.last s d n [] = some c ↔ _
    unfold spec.last
    by_cases h1 : n = "secp256k1"
    · rw [if_pos h1]
      subst h1
      simp [eq_comm]
    · rw [if_neg h1]
      by_cases h2 : n = "ed25519"
      · rw [if_pos h2]; subst h2; simp [eq_comm]
      · rw [if_neg h2]; simp [h1, h2]
  refine ⟨?_, ?_, fun c h1 h2 => ?_⟩
  · refine (C123_name_depends s d [] s s "secp256k1" ((hreg _ _).mpr (.inl ⟨rfl, rfl⟩)) rfl).1 (fun m b hb hbt => ?_) order hp
    rcases (hreg m b).mp hb with ⟨h, -⟩ | ⟨-, rfl⟩
    · exact h
    · exact absurd hbt.symm hsd
  · refine (C123_name_depends s d [] d d "ed25519" ((hreg _ _).mpr (.inr ⟨rfl, rfl⟩)) rfl).1 (fun m b hb hbt => ?_) order hp
    rcases (hreg m b).mp hb with ⟨-, rfl⟩ | ⟨h, -⟩
    · exact absurd hbt hsd
    · exact h
  · refine (C123_name s d [] order hp c).2.mpr fun n c' hc => ?_
    rcases (hreg n c').mp hc with ⟨-, rfl⟩ | ⟨-, rfl⟩
    · exact Ne.symm h1
    · exact Ne.symm h2

/-- C123, deviation: names stand for Go types, not for curves. When two different curves of one type are registered, a point of the first
can be written under the name of the second (in some iteration order of the map), and is then read as a point of the second curve if the
coordinates happen to fit, and refused otherwise. -/
theorem C123_wrong_curve (J : JsonCodec JsonPoint) (s d : RegCurve) (ops : List Op) (c1 c2 : RegCurve) (n2 : String) (hne : 0 < n2.length)
    (h2 : getCurveByName (runAll s d ops) n2 = some c2) (ht : c2.ty = c1.ty) (p : ECPoint) :
    ∃ order : List (String × RegCurve), order.Perm (runAll s d ops).registry ∧
      ∃ text, marshalJSON J ⟨EC (runAll s d ops), order⟩ c1 p = some text ∧
        unmarshalJSON J (runAll s d ops) text = if c2.curve.isOnCurve p.x p.y then some (c2, p) else none := by
  obtain ⟨order, hp, hn⟩ := (C123_name_depends s d ops c1 c2 n2 h2 ht).2
  refine ⟨order, hp, J.enc ⟨n2, some p.x, some p.y⟩, ?_, ?_⟩
  · unfold marshalJSON; rw [hn]
  · unfold unmarshalJSON
    rw [J.dec_enc]
    simp only
    rw [if_pos hne, h2]

/-- C123: SetCurve with a nil curve panics. -/
theorem C123_set_nil (env : CurveEnv) (c : RegCurve) : SetCurve env none = (.panic, env) ∧ (SetCurve env (some c)).1 = .ok () ∧
    EC (SetCurve env (some c)).2 = c ∧ ∀ n, getCurveByName (SetCurve env (some c)).2 n = getCurveByName env n :=
  ⟨rfl, rfl, rfl, fun _ => rfl⟩

/-- C123, non-vacuity: registering a third curve under the name "ed25519" after a fourth under a new name. -/
theorem C123_case (cv : Curve) :
    getCurveByName (runAll ⟨0, cv⟩ ⟨1, cv⟩ [.register "p" ⟨2, cv⟩, .set none, .register "ed25519" ⟨3, cv⟩, .set (some ⟨2, cv⟩)]) "ed25519" =
      some ⟨3, cv⟩ ∧
    getCurveName (runAll ⟨0, cv⟩ ⟨1, cv⟩ [.register "p" ⟨2, cv⟩, .set none, .register "ed25519" ⟨3, cv⟩, .set (some ⟨2, cv⟩)]) ⟨1, cv⟩ = none ∧
    EC (runAll ⟨0, cv⟩ ⟨1, cv⟩ [.register "p" ⟨2, cv⟩, .set none, .register "ed25519" ⟨3, cv⟩, .set (some ⟨2, cv⟩)]) = ⟨2, cv⟩ := by
  refine ⟨(C123_history _ _ _ _).1, ?_, (C123_history _ _ _ "p").2⟩
  rfl

end Tss.CurveReg
