import Verif.Props.Replay
import Verif.Props.OnsignHonestEx
/-! C79: a concrete case, two parties, two messages. -/
namespace Tss.Onsign
open Tss Text Wire RangeProofs Alice

/-- the toy session for the message 0x41 instead of 0x00ff07 -/
def toySession41 : Session :=
  { toySessionK fun _ => 4 with
    key := fun i => [9, UInt8.ofNat i]
    args := fun i => { (toySessionK fun _ => 4).args i with msg := ascii "41" } }

theorem toyHonest41 (sha512 : Bytes → Bytes) : ∃ H : Honest (toyEnvSha sha512) toySession41, H.msg = [0x41] := by
  obtain ⟨H⟩ := toyHonestK sha512 (fun _ => 4) (fun _ => by decide)
  refine ⟨{
    pIDs := H.pIDs
    ids := H.ids
    d := H.d
    kv := H.kv
    code := H.code
    x0 := H.x0
    grp := H.grp
    path := H.path
    child := H.child
    kb := H.kb
    msg := [0x41]
    N := H.N
    pn := H.pn
    ps := H.ps
    pt := H.pt
    keyInj := ?_
    count := H.count
    idsOk := H.idsOk
    idKey := H.idKey
    idInj := H.idInj
    keyData := H.keyData
    ks := H.ks
    priv := H.priv
    pub := H.pub
    codes := H.codes
    group := H.group
    groupOn := H.groupOn
    pathLen := H.pathLen
    soft := H.soft
    derive := H.derive
    refresh := H.refresh
    message := fun i _ => by show hexDecode (ascii "41") = _; decide +kernel
    moduli := H.moduli
    nonce := H.nonce
    encUnit := H.encUnit
    logUnit := H.logUnit
    encFresh := H.encFresh
    logFresh := H.logFresh
    zs := H.zs
    json := H.json }, rfl⟩
  intro i j hi hj h
  have hi' : i < 2 := hi
  have hj' : j < 2 := hj
  have h1 : ([9, UInt8.ofNat i] : Bytes) = [9, UInt8.ofNat j] := h
  simp only [List.cons.injEq, and_true, true_and] at h1
  have h2 := congrArg UInt8.toNat h1
  simp only [UInt8.toNat_ofNat'] at h2
  omega

/-- the client of party `j` can fetch its messages for `i` -/
theorem fetch_both {e : Env} {S : Session} (H : Honest e S) (s : Net) (hr : Run e S s) (i j : Nat) (hi : i < S.n) (hj : j < S.n)
    (h3 : 3 ≤ s.stage j) : ∃ (s' : Net) (rec : Mk → Bytes), Run e S s' ∧ ∀ mk, mk ≠ .three → s'.sent mk j i = some (rec mk) := by
  obtain ⟨F, -⟩ := H.facts
  have hs := run_inv F.toGFacts hr
  have f1 := Step.fetch1 (e := e) s i j hi hj (by omega) _ rfl
  obtain ⟨w1, g1⟩ := C55_every_call_ok H _ _ _ hr f1
  have r1 := Run.step hr f1
  have f2 := Step.fetch2 (e := e) (S := S) ⟨(GetRound1Msg2 s.reg (S.key j) i).2, s.stage, fun mk j' t => if mk = .b ∧ j' = j ∧ t = i then
    dataOf (GetRound1Msg2 s.reg (S.key j) i).1 else s.sent mk j' t, s.got, s.final⟩ i j hi hj h3 _ rfl
  obtain ⟨w2, g2⟩ := C55_every_call_ok H _ _ _ r1 f2
  obtain ⟨w0, g0⟩ := Option.isSome_iff_exists.mp (hs.sentA j i hj hi (by omega))
  refine ⟨_, fun mk => match mk with | .a => w0 | .b => w1 | .two => w2 | .three => [], Run.step r1 f2, ?_⟩
  intro mk hmk
  cases mk
  · simpa using g0
  · simp [g1, dataOf]
  · simp [g2, dataOf]
  · exact absurd rfl hmk

/-- Two sessions, 0x00ff07 with nonces 3 and 0x41 with nonces 4: party 0 of the second one takes party 1's messages of the
first one and answers. -/
example (sha512 : Bytes → Bytes) : ∃ (s s2 : Net) (rec : Mk → Bytes) (w : Bytes) (r' : Reg),
    Run (toyEnvSha sha512) (toySessionK fun _ => 3) s ∧ Run (toyEnvSha sha512) toySession41 s2 ∧
    (∀ mk, mk ≠ .three → s.sent mk 1 0 = some (rec mk)) ∧
    spec.AllOk (toyEnvSha sha512) (spec.replay [9, 0] 2 0 (fun mk _ => rec mk) fun _ => toyDraws) s2.reg ∧
    OnsignRound3Exec (toyEnvSha sha512) (fun _ => 1)
      (runOps (toyEnvSha sha512) (spec.replay [9, 0] 2 0 (fun mk _ => rec mk) fun _ => toyDraws) s2.reg) [9, 0] = (.ok w, r') := by
  obtain ⟨H⟩ := toyHonestK sha512 (fun _ => 3) (fun _ => by decide)
  obtain ⟨H2, -⟩ := toyHonest41 sha512
  obtain ⟨s, h1, h2⟩ := C55_can_finish H _ (Run.init fun _ => none)
  replace h1 := h1.run (Run.init fun _ => none)
  obtain ⟨s2, k1, k2⟩ := C55_can_finish H2 _ (Run.init fun _ => none)
  replace k1 := k1.run (Run.init fun _ => none)
  obtain ⟨s', rec, r1, hrec⟩ := fetch_both H s h1 0 1 (by decide) (by decide) (by rw [h2 1 (by decide)]; decide)
  obtain ⟨o, R, A, r', -, -, hr'⟩ := C79_replay H H2 rfl 0 (by decide) rfl s' s2 r1 k1 (by rw [k2 0 (by decide)]; decide)
    (fun mk _ => rec mk) (by
      intro mk hmk j hj hj0
      have hj' : j < 2 := hj
      obtain rfl : j = 1 := by omega
      exact hrec mk hmk)
  exact ⟨s', s2, rec, _, r', r1, k1, hrec, o, hr'⟩

end Tss.Onsign
