import Verif.Props.OnsignNew
import Verif.Lemmas.OnsignFixed
/-
Signing over whole histories (properties C54, C56): what a signature released by the final call has to do with the
arguments the party was created with, whatever happened in between.
-/
namespace Tss.Onsign
open Tss Text Wire RangeProofs

/-- C54/C56. A party is created with the hexadecimal message `b`. Then anything happens - any calls for any keys, any
messages, in any order - except that this key is neither created again nor removed. If the final call for this key then
releases a result, the result is the JSON of a signature over `b` without its leading zero bytes that verifies under the
party's group key. -/
theorem C56_history {e : Env} {r r1 r2 : Reg} {key out b : Bytes} {a : NewArgs} {ops : List Op} (hr : Reach e r)
    (hnew : NewLocalParty e r key a = (.ok (), r1)) (hmsg : hexDecode a.msg = some b)
    (hops : ∀ op ∈ ops, op.key = key → op.isLifecycle = false)
    (hfin : OnsignFinalExec e (runOps e ops r1) key = (.ok out, r2)) :
    ∃ p A sd, runOps e ops r1 key = some p ∧ p.keys.eddsaPub = some A ∧ e.jsonSig sd = some out ∧
      sd.m = b.dropWhile (· = 0) ∧
      spec.Verifies e.sha512 (Ed.ecPointToEncodedBytes A.x A.y) (b.dropWhile (· = 0)) sd.signature := by
  obtain ⟨-, -, -, m, p0, -, -, -, -, -, -, -, -, -, -, h4, -, -, h7, -, -, h10, -⟩ := C50_created hnew
  rw [hmsg] at h4; cases h4
  have hr1 : Reach e r1 := by
    have := hr.step (.new key a)
    have e1 : ((Op.new key a).run e r).2 = r1 := by show (NewLocalParty e r key a).2 = r1; rw [hnew]
    rwa [e1] at this
  have hk : r1 key = some p0 := by rw [h7, set_same]
  obtain ⟨q, g1, g2⟩ := runOps_same e key ops r1 p0 hk hops
  obtain ⟨p, A, sd, f1, f2, f3, f4, f5, f6, -⟩ := C54_released_signature_verifies (reach_runOps ops hr1) hfin
  rw [g1] at f1; cases f1
  have hm : intBytes q.m = b.dropWhile (· = 0) := by
    rw [g2.2.2.1, h10]; exact C56_signed_bytes b
  rw [hm] at f4 f6
  exact ⟨q, A, sd, g1, f2, f3, f6, f4⟩

/-- C54. In such a history, once the party has run round 1, the group key the signature verifies under is the sum of the
public shares fixed at creation: no message or call in between can change it. -/
theorem C54_group_key_fixed_at_creation {e : Env} {r r1 : Reg} {key : Bytes} {a : NewArgs} {ops : List Op} (hr : Reach e r)
    (hnew : NewLocalParty e r key a = (.ok (), r1)) (hops : ∀ op ∈ ops, op.key = key → op.isLifecycle = false)
    {p : Party} (hp : runOps e ops r1 key = some p) (hk : p.k ≠ none) :
    ∃ (p0 : Party) (gs : List Ed.Point), r1 key = some p0 ∧ p0.keys.pubXj = gs.map (fun g => some (Ed.lawful.pt g)) ∧
      p.keys.eddsaPub = some (Ed.lawful.pt gs.sum) ∧ p.keys.privXi = p0.keys.privXi := by
  obtain ⟨-, -, -, m, p0, -, -, -, -, -, -, -, -, -, -, -, -, -, h7, -⟩ := C50_created hnew
  have hr1 : Reach e r1 := by
    have := hr.step (.new key a)
    have e1 : ((Op.new key a).run e r).2 = r1 := by show (NewLocalParty e r key a).2 = r1; rw [hnew]
    rwa [e1] at this
  have hk0 : r1 key = some p0 := by rw [h7, set_same]
  obtain ⟨q, g1, g2⟩ := runOps_same e key ops r1 p0 hk0 hops
  rw [hp] at g1; cases g1
  obtain ⟨gs, f1, A, f2, f3, -⟩ := C54_group_key_is_sum (reach_runOps ops hr1) hp hk
  exact ⟨p0, gs, hk0, by rw [← g2.2.2.2.2]; exact f1, by rw [f2, f3], g2.2.2.2.1⟩

end Tss.Onsign
