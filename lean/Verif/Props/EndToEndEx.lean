import Verif.Props.EndToEnd
import Verif.Props.OnsignHonestEx
/-
C77: such key generations exist for all inputs and all chain codes, and a concrete pair of sessions meets the hypotheses.
-/
namespace Tss.EndToEnd
open Tss Text Wire RangeProofs

/-! ### Chain codes during a run -/

/-- Every party exists, holds the codes, and has written them if it has finished. -/
def Coded (e : Keygen.Env) (K : Keygen.Session) (cs : List (Option Int)) (s : Keygen.Net) : Prop :=
  ∀ i, i < K.n → 1 ≤ s.stage i ∧ (∃ p, s.reg (K.key i) = some p ∧ p.save.chainCodes = cs) ∧
    ∀ out, s.final i = some out → ∃ sv : Keygen.SaveData, e.jsonEnc sv = some out ∧ sv.chainCodes = cs

theorem Coded.step {e : Keygen.Env} {K : Keygen.Session} {cs : List (Option Int)} {s s' : Keygen.Net} {out : Res Keygen.Err Bytes}
    (h : Coded e K cs s) (hs : Keygen.Step e K s out s') : Coded e K cs s' := by
  have keep : ∀ (op : Keygen.Op), (∀ k, op.keeps k) → ∀ i, i < K.n → ∃ p, (op.run e s.reg).2 (K.key i) = some p ∧
      p.save.chainCodes = cs := by
    intro op hop i hi
    obtain ⟨-, ⟨p, hp, hc⟩, -⟩ := h i hi
    obtain ⟨q, hq, hk⟩ := Keygen.run_kept e op s.reg (K.key i) p hp (hop _)
    exact ⟨q, hq, by rw [hk.1, hc]⟩
  cases hs with
  | create i hi h0 q hq => have := (h i hi).1; omega
  | exec rd i hi hst hr q hq =>
    intro j hj
    refine ⟨?_, ?_, (h j hj).2.2⟩
    · show 1 ≤ if j = i then rd.num + 1 else s.stage j
      have := (h j hj).1
      split <;> omega
    · subst hq
      cases rd
      · exact keep (.exec1 (K.key i) (K.rnd i)) (fun _ => trivial) j hj
      · exact keep (.exec2 (K.key i)) (fun _ => trivial) j hj
      · exact keep (.exec3 (K.key i)) (fun _ => trivial) j hj
  | exec4 i hi hst hr q hq =>
    intro j hj
    refine ⟨?_, ?_, ?_⟩
    · show 1 ≤ if j = i then 5 else s.stage j
      have := (h j hj).1
      split <;> omega
    · subst hq
      exact keep (.exec4 (K.key i)) (fun _ => trivial) j hj
    · show ∀ out, (if j = i then Keygen.Res.data q.1 else s.final j) = some out → _
      intro o ho
      by_cases hji : j = i
      · rw [if_pos hji] at ho
        obtain ⟨-, ⟨p, hp, hc⟩, -⟩ := h i hi
        have h4 : (Keygen.r4Exec e p).1 = .ok o := by
          rw [hq, Keygen.KeygenRound4Exec, Keygen.withParty, hp] at ho
          simp only at ho
          cases hr4 : (Keygen.r4Exec e p).1 with
          | ok b => rw [hr4] at ho; exact congrArg _ (Option.some.inj ho)
          | err er => rw [hr4] at ho; cases ho
          | panic => rw [hr4] at ho; cases ho
        obtain ⟨sv, s1, s2, -⟩ := Keygen.r4Exec_codes h4
        exact ⟨sv, s1, by rw [s2, hc]⟩
      · rw [if_neg hji] at ho
        exact (h j hj).2.2 o ho
  | deliver rd i j hi hj hst w hw q hq =>
    intro j' hj'
    refine ⟨(h j' hj').1, ?_, (h j' hj').2.2⟩
    subst hq
    exact keep (.acc rd (K.key i) j (b64Encode w)) (fun _ => trivial) j' hj'

theorem Coded.steps {e : Keygen.Env} {K : Keygen.Session} {cs : List (Option Int)} {s s' : Keygen.Net}
    (hs : Keygen.Steps e K s s') : Coded e K cs s → Coded e K cs s' := by
  induction hs with
  | refl _ => exact id
  | head h1 _ ih => exact fun h => ih (h.step h1)

/-- Create the first `k` parties and hand each the chain codes. -/
theorem prepared {e : Keygen.Env} {G : Type} [AddCommGroup G] {L : Lawful e.c G} {K : Keygen.Session} (hg : Keygen.Good e L K)
    (codes : Bytes) (hlen : (split 124 codes).length = K.n) (hcodes : ∀ s ∈ split 124 codes, ∃ v, parseBig 16 s = some v) :
    ∀ k, k ≤ K.n → ∃ s, Keygen.Run e K s ∧ (∀ i, s.final i = none) ∧ (∀ i, k ≤ i → s.stage i = 0) ∧
      ∀ i, i < k → s.stage i = 1 ∧ ∃ p, s.reg (K.key i) = some p ∧ p.save.chainCodes = (split 124 codes).map (parseBig 16)
  | 0, _ => ⟨_, .init (fun _ => none), fun _ => rfl, fun _ _ => rfl, fun i hi => absurd hi (by omega)⟩
  | k + 1, hk => by
    obtain ⟨s, hr, hf, h0, h1⟩ := prepared hg codes hlen hcodes k (by omega)
    have st := Keygen.Step.create (e := e) (S := K) s k (by omega) (h0 k (Nat.le_refl _)) _ rfl
    have hr1 := Keygen.Run.step hr st
    have ni := Keygen.run_inv hg hr1
    rcases ni.party k (by omega) with hz | ⟨p, hp, hpi⟩
    · simp at hz
    · have hr2 := Keygen.Run.noise hr1 (Keygen.Noise.chain _ k (by omega) codes)
      refine ⟨_, hr2, hf, ?_, ?_⟩
      · intro i hi
        show (if i = k then 1 else s.stage i) = 0
        rw [if_neg (by omega)]; exact h0 i (by omega)
      · intro i hi
        by_cases hik : i = k
        · subst hik
          refine ⟨if_pos rfl, ?_⟩
          have hlp := hpi.lpub
          have ok := (Keygen.C14_success_iff _ _ codes p hp).mpr ⟨by rw [hlp]; exact hlen, hcodes⟩
          rcases Keygen.C14_effect _ _ codes p hp with ⟨l, l1, -, l3⟩ | ⟨er, l3⟩
          · refine ⟨{ p with save := { p.save with chainCodes := l.map some } }, ?_, l1.symm⟩
            show (Keygen.SaveChainCodes _ (K.key i) codes).2 (K.key i) = _
            rw [l3]; simp [Keygen.Reg.set]
          · rw [l3] at ok; cases ok
        · obtain ⟨a, p', b, c⟩ := h1 i (by omega)
          refine ⟨(if_neg hik).trans a, p', ?_, c⟩
          have hne : K.key k ≠ K.key i := fun h => hik (hg.keys k i (by omega) (by omega) h).symm
          have e1 := Keygen.run_elsewhere e (.new (K.key k) k K.n K.pIDs (K.root k)) s.reg (K.key i) hne
          have e2 := Keygen.run_elsewhere e (.saveChain (K.key k) codes)
            (Keygen.NewLocalParty s.reg (K.key k) k K.n K.pIDs (K.root k)).2 (K.key i) hne
          exact (e2.trans e1).trans b

/-- C77: for all inputs of key generation and all well-formed chain codes there is a complete run whose records hold the codes. -/
theorem C77_keygen_with_codes (H : Bytes → Bytes) (K : Keygen.Session) (hg : Keygen.Good (kgEnv H) Ed.lawful K) (codes : Bytes)
    (hlen : (split 124 codes).length = K.n) (hcodes : ∀ s ∈ split 124 codes, ∃ v, parseBig 16 s = some v) :
    ∃ sK, Keygen.Run (kgEnv H) K sK ∧ (∀ i, i < K.n → sK.stage i = 5) ∧
      ∀ i out d, i < K.n → sK.final i = some out → SaveJson.unmarshal out = some d →
        d.chainCodes = (split 124 codes).map (parseBig 16) := by
  obtain ⟨s, hr, hf, -, h1⟩ := prepared hg codes hlen hcodes K.n (Nat.le_refl _)
  obtain ⟨s', hst, hdone⟩ := Keygen.C21_can_finish (kgEnv H) Ed.lawful K hg s hr
  have c0 : Coded (kgEnv H) K ((split 124 codes).map (parseBig 16)) s := by
    intro i hi
    refine ⟨by rw [(h1 i hi).1], (h1 i hi).2, ?_⟩
    intro out ho; rw [hf i] at ho; cases ho
  have c1 := Coded.steps hst c0
  have hr' := hst.run hr
  refine ⟨s', hr', hdone, ?_⟩
  intro i out d hi ho hd
  obtain ⟨sv, s1, s2⟩ := (c1 i hi).2.2 out ho
  obtain ⟨sv', -, t1, t2, -, t4, -⟩ := (Keygen.run_inv hg hr').final i out hi ho
  have e1 : SaveJson.marshal sv' = out := Option.some.inj t1
  have e2 : SaveJson.marshal sv = out := Option.some.inj s1
  have on1 : ∀ p, some p ∈ sv'.pubXj → Ed.curve.On p := by
    intro p hp
    rw [t4] at hp
    obtain ⟨j, -, hj⟩ := List.mem_map.mp hp
    rw [← Option.some.inj hj]
    exact Ed.lawful.on_pt _
  have on2 : ∀ p, sv'.eddsaPub = some p → Ed.curve.On p := by
    intro p hp
    rw [t2] at hp
    rw [← Option.some.inj hp]
    exact Ed.lawful.on_pt _
  have hd' := SaveJson.C76_save_round_trip sv' on1 on2
  rw [e1, hd] at hd'
  rw [Option.some.inj hd', ← SaveJson.C76_save_injective sv sv' (e2.trans e1.symm), s2]

/-! ### A concrete pair of sessions -/

/-- A hash that depends on its input. -/
def exH (b : Bytes) : Bytes := [UInt8.ofNat b.length, b.headD 3]

/-- Key generation of two parties with ids 17 and 5 and root keys 1 and 2. -/
def exK : Keygen.Session where
  n := 2
  key i := [UInt8.ofNat i]
  pIDs := [ascii "17", ascii "5"]
  root i := if i = 0 then ascii "01" else ascii "02"
  rnd i := ⟨0, 4 + i, [1, 2], [UInt8.ofNat (7 * i), 9]⟩

theorem exK_good : Keygen.Good (kgEnv exH) Ed.lawful exK where
  keys i j hi hj h := by
    simp only [exK, List.cons.injEq, and_true] at h hi hj
    have h2 := congrArg UInt8.toNat h
    simp only [UInt8.toNat_ofNat'] at h2
    omega
  ids := by
    rw [Keygen.idsOk_iff _ _ (by simp [exK])]
    decide +kernel
  roots i hi := by
    simp only [exK] at hi ⊢
    split
    · exact ⟨[1], by decide⟩
    · exact ⟨[2], by decide⟩
  sizes := {
    coords := fun g => Onsign.coords_small g
    order := by show Ed.curve.N ≤ 256 ^ 32; decide +kernel
    hash := fun b => by simp [exH]
    draws := fun i _ => by simp [exK] }
  json sv := rfl

theorem exK_x (i : Nat) (hi : i < 2) : exK.x i = i + 1 := by
  rcases (by omega : i = 0 ∨ i = 1) with rfl | rfl <;> decide +kernel

/-- The environment of the toy signing session with the real decoding of records and the real encoding of signatures. -/
noncomputable def exE : Onsign.Env :=
  { Onsign.toyEnvS with jsonDec := SaveJson.unmarshal, jsonSig := fun sd => some (SaveJson.marshalSig sd) }

/-- The toy signing session, with the texts that key generation returned. -/
noncomputable def exS (sK : Keygen.Net) : Onsign.Session :=
  { Onsign.toySession with args := fun i => { Onsign.toySession.args i with keyData := b64Encode ((sK.final i).getD []) } }

/-- The hypotheses of C77 can be met: chain codes 1f and a0, message 00 ff 07. -/
theorem exJoined : ∃ sK, Keygen.Run (kgEnv exH) exK sK ∧ Nonempty (Joined exH exK sK exE (exS sK)) := by
  have hsp : split 124 (ascii "1f|a0") = [ascii "1f", ascii "a0"] := by decide +kernel
  have hp1 : parseBig 16 (ascii "1f") = some 31 := by decide +kernel
  have hp2 : parseBig 16 (ascii "a0") = some 160 := by decide +kernel
  obtain ⟨sK, hr, hdone, hc⟩ := C77_keygen_with_codes exH exK exK_good (ascii "1f|a0") (by rw [hsp]; rfl) (by
    intro s hs
    rw [hsp] at hs
    simp only [List.mem_cons, List.not_mem_nil, or_false] at hs
    rcases hs with rfl | rfl
    · exact ⟨_, hp1⟩
    · exact ⟨_, hp2⟩)
  rw [hsp] at hc
  refine ⟨sK, hr, ⟨{
    code := fun i => if i = 0 then 31 else 160
    path := Onsign.toyPath
    msg := [0, 255, 7]
    N := fun _ => 15
    pn := fun _ => 35
    ps := fun _ => 4
    pt := fun _ => 9
    good := exK_good
    run := hr.noLoss exK_good
    done := hdone
    rootSize := ?_
    distinct := by decide +kernel
    codes := ?_
    size := rfl
    keyInj := exK_good.keys
    count := fun i _ => ⟨rfl, rfl, rfl, rfl⟩
    decode := rfl
    encode := rfl
    keyData := ?_
    pathLen := by decide +kernel
    soft := by decide +kernel
    derivable := ?_
    message := fun i _ => by show hexDecode (ascii "00ff07") = _; decide +kernel
    refresh := ?_
    moduli := fun i _ => by decide
    nonce := fun i _ => ⟨by show (0:Int) ≤ 3; decide, by show (3:Int) < 15; decide, by show (3:Int) < 2^256; norm_num,
      by show Int.gcd 2 15 = 1; decide⟩
    encUnit := fun i j _ _ => ⟨by show Int.gcd 2 15 = 1; decide, Onsign.toy_room (k := 3) (by decide) (by decide)⟩
    logUnit := fun i j _ _ => ⟨by show Int.gcd 2 15 = 1; decide, Onsign.toy_room (k := 3) (by decide) (by decide)⟩
    encFresh := fun i j K _ _ _ => Onsign.toy_enc _ K 3 (by decide) (by decide)
    logFresh := fun i j K _ _ _ => Onsign.toy_log _ K 3 (by decide) (by decide) _ _ Ed.lawful.base_onCurve
    zs := fun i j _ _ => by show Ed.fe 1 % Ed.P ≠ 0; decide +kernel }⟩⟩
  · intro i hi
    have hi' : i < 2 := hi
    rw [exK_x i hi']; norm_num; omega
  · intro i out d hi ho hd
    rw [hc i out d hi ho hd, List.map_cons, List.map_cons, List.map_nil, hp1, hp2]
    rfl
  · intro i out hi ho
    show b64Encode ((sK.final i).getD []) = _
    rw [ho]; rfl
  · intro i hi
    have hi' : i < 2 := hi
    obtain ⟨q, hq⟩ := Onsign.toy_derive (exK.x i) (Int.natCast_nonneg _) (by rw [exK_x i hi']; norm_num; omega)
      (Ed.lawful.pt (exK.x i • Ed.B)) (Ed.lawful.pt (((List.range exK.n).map exK.x).sum • Ed.B)) (Ed.lawful.on_pt _)
      (Ed.lawful.on_pt _) (intBytes (if i = 0 then 31 else 160))
    exact ⟨q.1, q.2, hq⟩
  · intro i hi
    refine ⟨Onsign.toyPayload, hex_round_trip _, by show 1376 + 673 * 2 ≤ Onsign.toyPayload.length; decide +kernel, ?_⟩
    intro j hj
    have hj' : j < 2 := hj
    rcases (by omega : j = 0 ∨ j = 1) with rfl | rfl
    · decide +kernel
    · decide +kernel

/-- So two parties can generate a key, store it and sign the message ff 07 with it. -/
example : ∃ sK s sd A, Keygen.Run (kgEnv exH) exK sK ∧ Onsign.Run exE (exS sK) s ∧
    Onsign.spec.Verifies exE.sha512 (Ed.encode A) [255, 7] sd.signature ∧
    ∀ i, i < 2 → s.final i = some (SaveJson.marshalSig sd) := by
  obtain ⟨sK, hK, ⟨J⟩⟩ := exJoined
  obtain ⟨h, -⟩ := J.honest
  obtain ⟨-, s, h1, h2⟩ := C77_every_call_ok J _ ((Onsign.Run.init fun _ => none).noLoss h)
  replace h1 := h1.run (Onsign.Run.init fun _ => none)
  obtain ⟨sd, Q, a1, -, a2, -⟩ := C77_end_to_end J
  have hm : J.msg.dropWhile (· = 0) = [255, 7] := by
    have := J.message 0 (by show 0 < 2; decide)
    rw [show hexDecode ((exS sK).args 0).msg = some [0, 255, 7] by show hexDecode (ascii "00ff07") = _; decide +kernel] at this
    rw [← Option.some.inj this]; decide
  rw [hm] at a2
  exact ⟨sK, s, sd, _, hK, h1, a2, fun i hi => a1 s (h1.noLoss h) i hi (h2 i hi)⟩

end Tss.EndToEnd
