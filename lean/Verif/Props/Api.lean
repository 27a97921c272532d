import Verif.Model.Api
import Verif.Props.World
import Verif.Props.Onsign
/-!
C68: the exported functions are faithful wrappers, and what holds of the packages holds of histories of exported calls.
-/
namespace Tss.Api
open Tss Text World

/-! ### Specification -/

namespace spec

/-- Which package call an exported call stands for.  Party ids are given as one comma-separated text. -/
def target : Op → World.Op
  | .newKeygen k i n ids root => .kg (.new k i n (split 44 ids) root)
  | .removeKeygen k => .kg (.remove k)
  | .saveChainCodes k c => .kg (.saveChain k c)
  | .keygen1Exec k rnd => .kg (.exec1 k rnd)
  | .keygen1Accept k f m => .kg (.acc .one k f m)
  | .keygen1Finish k => .kg (.fin .one k)
  | .keygen2Exec k => .kg (.exec2 k)
  | .keygen2Accept k f m => .kg (.acc .two k f m)
  | .keygen2Finish k => .kg (.fin .two k)
  | .keygen3Exec k => .kg (.exec3 k)
  | .keygen3Accept k f m => .kg (.acc .three k f m)
  | .keygen3Finish k => .kg (.fin .three k)
  | .keygen4Exec k => .kg (.exec4 k)
  | .newSign k i n ids m kd rd p => .sg (.new k ⟨i, n, split 44 ids, m, kd, rd, p⟩)
  | .removeSign k => .sg (.remove k)
  | .sign1Exec k rnd => .sg (.exec1 k rnd)
  | .getSign1 k t => .sg (.get1 k t)
  | .sign1Accept k f m => .sg (.acc1 k f m)
  | .sign1Finish k => .sg (.fin1 k)
  | .sign2Exec k d => .sg (.exec2 k d)
  | .getSign2 k t => .sg (.get2 k t)
  | .sign2Accept k f m => .sg (.acc2 k f m)
  | .sign2Finish k => .sg (.fin2 k)
  | .sign3Exec k z => .sg (.exec3 k z)
  | .sign3Accept k f m => .sg (.acc3 k f m)
  | .sign3Finish k => .sg (.fin3 k)
  | .signFinal k => .sg (.final k)

/-- What an observer of the result record can read: success with these bytes (none or empty bytes look alike), failure
with this text, a boolean, or a crash. -/
inductive View where
  | done (data : Bytes)
  | failed (text : Bytes)
  | bool (b : Bool)
  | crash
  deriving DecidableEq

/-- Reading an exported result. -/
def view : Out → View
  | .exec (some r) => if r.ok then .done (r.data.getD []) else .failed r.err
  | .plain (some r) => if r.ok then .done [] else .failed r.err
  | .exec none => .crash
  | .plain none => .crash
  | .bool b => .bool b

/-- Reading a package result. -/
def viewPkg : World.Out → View
  | .kg (.res (.ok b)) => .done b
  | .kg (.res (.err e)) => .failed e.text
  | .kg (.res .panic) => .crash
  | .kg (.bool b) => .bool b
  | .sg (.res (.ok b)) => .done b
  | .sg (.res (.err e)) => .failed e.text
  | .sg (.res .panic) => .crash
  | .sg (.bool b) => .bool b

end spec

theorem view_kgExec (r : Res Keygen.Err Bytes) :
    spec.view (.exec ((kgExec r).map execResFromKeygen)) = spec.viewPkg (.kg (.res r)) := by
  cases r <;> rfl

theorem view_kg (r : Res Keygen.Err Unit) :
    spec.view (.plain ((kgRes r).map resFromKeygen)) = spec.viewPkg (.kg (.res (Keygen.noData r))) := by
  cases r <;> rfl

theorem view_sgExec (r : Res Onsign.Err Bytes) :
    spec.view (.exec ((sgExec r).map execResFromOnsign)) = spec.viewPkg (.sg (.res r)) := by
  cases r with
  | ok b =>
    simp only [sgExec, Option.map_some, execResFromOnsign, spec.view, spec.viewPkg, if_true]
    split
    · next h => rw [h]; rfl
    · rfl
  | err e => rfl
  | panic => rfl

theorem view_sg (r : Res Onsign.Err Unit) :
    spec.view (.plain ((sgRes r).map resFromOnsign)) = spec.viewPkg (.sg (.res (Onsign.noData r))) := by
  cases r <;> rfl

/-- C68. Every exported call has exactly the effect of the package call it stands for, on both registries, and its
result record says the same: success flag, error text, data, crash. -/
theorem C68_faithful (e : Env) (op : Op) (w : World) :
    spec.view (op.run e w).1 = spec.viewPkg ((spec.target op).run e w).1 ∧
      (op.run e w).2 = ((spec.target op).run e w).2 := by
  cases op <;>
    first
    | exact ⟨view_kgExec _, rfl⟩
    | exact ⟨view_kg _, rfl⟩
    | exact ⟨view_sgExec _, rfl⟩
    | exact ⟨view_sg _, rfl⟩
    | exact ⟨rfl, rfl⟩

/-- C68. Success never carries an error text, failure never carries data, and a failure text is never empty. -/
theorem C68_record_shape (e : Env) (op : Op) (w : World) :
    (∀ r, (op.run e w).1 = .exec (some r) →
      (r.ok = true → r.err = []) ∧ (r.ok = false → r.data = none ∧ r.err ≠ [])) ∧
    (∀ r, (op.run e w).1 = .plain (some r) → (r.ok = true ↔ r.err = [])) := by
  have kgt : ∀ x : Keygen.Err, x.text ≠ [] := by
    intro x
    cases x <;> simp only [Keygen.Err.text] <;> first
      | exact ascii_append_ne _ _ (by decide)
      | decide
      | (rw [List.append_assoc, List.append_assoc]; exact ascii_append_ne _ _ (by decide))
  have sgt : ∀ x : Onsign.Err, x.text ≠ [] := by
    intro x
    cases x <;> simp only [Onsign.Err.text] <;> first
      | exact ascii_append_ne _ _ (by decide)
      | decide
      | (rw [List.append_assoc]; exact ascii_append_ne _ _ (by decide))
  have a1 : ∀ (x : Res Keygen.Err Bytes) (r : MpcExecResult), (kgExec x).map execResFromKeygen = some r →
      (r.ok = true → r.err = []) ∧ (r.ok = false → r.data = none ∧ r.err ≠ []) := by
    intro x r h
    cases x <;> simp only [kgExec, Option.map_some, Option.map_none, Option.some.injEq, reduceCtorEq, execResFromKeygen] at h <;>
      subst h <;> simp [kgt]
  have a2 : ∀ (x : Res Keygen.Err Unit) (r : MpcResult), (kgRes x).map resFromKeygen = some r → (r.ok = true ↔ r.err = []) := by
    intro x r h
    cases x <;> simp only [kgRes, Option.map_some, Option.map_none, Option.some.injEq, reduceCtorEq, resFromKeygen] at h <;>
      subst h <;> simp [kgt]
  have a3 : ∀ (x : Res Onsign.Err Bytes) (r : MpcExecResult), (sgExec x).map execResFromOnsign = some r →
      (r.ok = true → r.err = []) ∧ (r.ok = false → r.data = none ∧ r.err ≠ []) := by
    intro x r h
    cases x <;> simp only [sgExec, Option.map_some, Option.map_none, Option.some.injEq, reduceCtorEq, execResFromOnsign] at h <;>
      subst h <;> simp [sgt]
  have a4 : ∀ (x : Res Onsign.Err Unit) (r : MpcResult), (sgRes x).map resFromOnsign = some r → (r.ok = true ↔ r.err = []) := by
    intro x r h
    cases x <;> simp only [sgRes, Option.map_some, Option.map_none, Option.some.injEq, reduceCtorEq, resFromOnsign] at h <;>
      subst h <;> simp [sgt]
  refine ⟨?_, ?_⟩ <;> intro r h <;> cases op <;> first
    | exact a1 _ r (Out.exec.inj h)
    | exact a2 _ r (Out.plain.inj h)
    | exact a3 _ r (Out.exec.inj h)
    | exact a4 _ r (Out.plain.inj h)
    | exact Out.noConfusion h

/-- C68. Party ids written with commas between them reach the packages as that list. -/
theorem C68_ids (e : Env) (w : World) (key : Bytes) (i n : Int) (ids : List Bytes) (hne : ids ≠ []) (hc : ∀ a ∈ ids, (44 : UInt8) ∉ a)
    (root msg kd rd path : Bytes) :
    NewKeygenLocalParty w key i n (join 44 ids) root = onKg w (Keygen.NewLocalParty w.kg key i n ids root) ∧
    NewSignLocalParty e w key i n (join 44 ids) msg kd rd path =
      onSg w (Onsign.NewLocalParty e.sg w.sg key ⟨i, n, ids, msg, kd, rd, path⟩) := by
  unfold NewKeygenLocalParty NewSignLocalParty
  rw [split_join 44 ids hne hc]
  exact ⟨rfl, rfl⟩

example : join 44 [ascii "17", ascii "5"] = ascii "17,5" := by decide

/-- C68. Whatever is reached through the exported surface is reached by calls of the two packages. -/
theorem C68_reach (e : Env) {w : World} (h : Reach e w) : Keygen.Reach e.kg w.kg ∧ Onsign.Reach e.sg w.sg := by
  induction h with
  | init => exact ⟨.init, .init⟩
  | @step w op _ ih =>
    rw [(C68_faithful e op w).2]
    generalize spec.target op = t
    cases t with
    | kg o => exact ⟨.step o ih.1, ih.2⟩
    | sg o => exact ⟨ih.1, .step o ih.2⟩

/-- C68, C54 at the exported surface: after any history of exported calls, when OnSignFinalExec reports success, its data
is the JSON of a signature that verifies over the party's message under the group key the party holds. -/
theorem C68_final_exec_signature (e : Env) {w w' : World} {key out : Bytes} (h : Reach e w)
    (hf : OnSignFinalExec e w key = (some ⟨true, [], some out⟩, w')) :
    ∃ p A sd, w.sg key = some p ∧ p.keys.eddsaPub = some A ∧ e.sg.jsonSig sd = some out ∧
      Onsign.spec.Verifies e.sg.sha512 (Ed.ecPointToEncodedBytes A.x A.y) (intBytes p.m) sd.signature := by
  unfold OnSignFinalExec onSgExec at hf
  rw [Prod.mk.injEq] at hf
  obtain ⟨h1, -⟩ := hf
  cases hq : (Onsign.OnsignFinalExec e.sg w.sg key).1 with
  | ok b =>
    rw [hq] at h1
    simp only [sgExec, Option.map_some, execResFromOnsign, Option.some.injEq, MpcExecResult.mk.injEq, true_and] at h1
    split at h1
    · exact absurd h1 (by simp)
    · have hb := Option.some.inj h1
      subst hb
      obtain ⟨p, A, sd, a1, a2, a3, a4, -⟩ := Onsign.C54_released_signature_verifies (C68_reach e h).2
        (show Onsign.OnsignFinalExec e.sg w.sg key = (.ok b, (Onsign.OnsignFinalExec e.sg w.sg key).2) by rw [← hq])
      exact ⟨p, A, sd, a1, a2, a3, a4⟩
  | err er => rw [hq] at h1; simp [sgExec, execResFromOnsign] at h1
  | panic => rw [hq] at h1; simp [sgExec] at h1

end Tss.Api
