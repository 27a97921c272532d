import Verif.Lemmas.Retry
import Verif.Lemmas.OnsignFixed
import Verif.Props.World
import Verif.Props.NonceReuse
/-
C112: a signer's share of the key is read at creation and in round 3, and nowhere else.
-/
namespace Tss.Onsign
open Tss Text Wire RangeProofs

namespace spec

/-- The party with another share of the key. -/
def withShare (x : Option Int) (p : Party) : Party := { p with keys := { p.keys with privXi := x } }

/-- The registries are the same, but for the share that the party named `key` holds. -/
def SameButShare (key : Bytes) (r r' : Reg) : Prop :=
  (∀ k, k ≠ key → r k = r' k) ∧ (r key).map (withShare none) = (r' key).map (withShare none)

/-- The answers to calls made one after the other. -/
def answers (e : Env) : List Op → Reg → List Out
  | [], _ => []
  | op :: t, r => (op.run e r).1 :: answers e t (op.run e r).2

/-- Not round 3 of the party named `key`. -/
def notRound3 (key : Bytes) : Op → Prop
  | .exec3 k _ => k ≠ key
  | _ => True

end spec
open spec

variable (e : Env) (x : Option Int)

theorem r1Step_share (rnd : Rand1) (n K : Int) (p : Party) (j : Nat) :
    r1Step e rnd n K (withShare x p) j = ((r1Step e rnd n K p j).1, withShare x (r1Step e rnd n K p j).2) := by
  simp only [r1Step, withShare]
  cases p.keys.ringPedersenPKs.getD j none with
  | none => rfl
  | some ped =>
    simp only
    cases NewEncryptRangeMessage e.Hb proofParameter (context p.ssid p.index) K n rnd.k rnd.rho ped (rnd.enc j) <;> rfl

theorem r1Exec_share (rnd : Rand1) (p : Party) :
    r1Exec e rnd (withShare x p) = ((r1Exec e rnd p).1, withShare x (r1Exec e rnd p).2) := by
  have hp : ∀ (n K : Int) (q : Party), r1Proofs e rnd n K (withShare x q) =
      ((r1Proofs e rnd n K q).1, withShare x (r1Proofs e rnd n K q).2) := by
    intro n K q
    unfold r1Proofs
    have h := Retry.forJ_map (r1Step e rnd n K) (withShare x) (r1Step_share e x rnd n K) (List.range q.ids.length) q
    have hl : (withShare x q).ids.length = q.ids.length := rfl
    rw [hl, h]
    rcases Keygen.forJ (r1Step e rnd n K) (List.range q.ids.length) q with ⟨o, q'⟩
    cases o <;> rfl
  have hen : ∀ q : Party, r1Encrypt e rnd (withShare x q) = ((r1Encrypt e rnd q).1, withShare x (r1Encrypt e rnd q).2) := by
    intro q
    unfold r1Encrypt
    have h1 : (withShare x q).keys.paillierPKs = q.keys.paillierPKs := rfl
    have h2 : (withShare x q).index = q.index := rfl
    rw [h1, h2]
    cases q.keys.paillierPKs.getD q.index none with
    | none => rfl
    | some n =>
      simp only
      split
      · rfl
      · cases Paillier.cipher n rnd.k rnd.rho with
        | none => rfl
        | some K =>
          exact hp n K { q with
            rho := some rnd.rho
            kc := q.kc.set q.index (some K)
            m11 := q.m11.set q.index (wireBytes (.sg1a (intBytes K))) }
  unfold r1Exec r1Body
  have h1 : ({ resetOK { withShare x p with number := 1 } with ssid := ssidConst } : Party).keys.pubXj = p.keys.pubXj := rfl
  have h2 : ({ resetOK { p with number := 1 } with ssid := ssidConst } : Party).keys.pubXj = p.keys.pubXj := rfl
  rw [h1, h2]
  cases p.keys.pubXj with
  | nil => rfl
  | cons X t =>
    cases X with
    | none => rfl
    | some X =>
      simp only
      cases sumPub 1 X t with
      | err _ => rfl
      | panic => rfl
      | ok s =>
        exact hen { resetOK { p with number := 1 } with
          ssid := ssidConst
          keys := { p.keys with eddsaPub := some s }
          k := some rnd.k }

theorem r2Verify_share (p : Party) (j : Nat) :
    r2Verify e (withShare x p) j = ((r2Verify e p j).1, withShare x (r2Verify e p j).2) := by
  unfold r2Verify
  by_cases hj : j = p.index
  · rw [if_pos (show j = (withShare x p).index from hj), if_pos hj]
  · rw [if_neg (show ¬ j = (withShare x p).index from hj), if_neg hj]
    simp only [withShare]
    cases parseWireMsg (p.m11.getD j []) with
    | none => rfl
    | some c =>
      cases c <;> try rfl
      simp only
      cases parseWireMsg (p.m12.getD j []) with
      | none => rfl
      | some d =>
        cases d <;> try rfl
        rename_i bigK proof
        simp only
        cases encUnmarshal proof with
        | none => rfl
        | some m =>
          simp only
          cases p.keys.paillierPKs.getD j none with
          | none => rfl
          | some n =>
            cases p.keys.ringPedersenPKs.getD p.index none with
            | none => rfl
            | some ped =>
              simp only
              cases m.verify e.Hb proofParameter (context p.ssid j) (beNat bigK : Int) n ped <;> rfl

theorem r2Prove_share (draws : Nat → Draws) (k rho K n : Int) (Ri G : ECPoint) (p : Party) (j : Nat) :
    r2Prove e draws k rho K n Ri G (withShare x p) j =
      ((r2Prove e draws k rho K n Ri G p j).1, withShare x (r2Prove e draws k rho K n Ri G p j).2) := by
  simp only [r2Prove, withShare]
  cases p.keys.ringPedersenPKs.getD j none with
  | none => rfl
  | some ped =>
    simp only
    cases NewKnowExponent e.Hb Ed.curve proofParameter (context p.ssid p.index) k rho K n ped Ri G (draws j) with
    | err _ => rfl
    | panic => rfl
    | ok m =>
      simp only
      cases m.verify e.Hb Ed.curve proofParameter (context p.ssid p.index) K n ped Ri G <;> rfl

theorem r2Exec_share (draws : Nat → Draws) (p : Party) :
    r2Exec e draws (withShare x p) = ((r2Exec e draws p).1, withShare x (r2Exec e draws p).2) := by
  unfold r2Exec
  simp only
  have h0 : resetOK { withShare x p with number := 2 } = withShare x (resetOK { p with number := 2 }) := rfl
  rw [h0]
  have h := Retry.forJ_map (r2Verify e) (withShare x) (r2Verify_share e x)
    (List.range (resetOK { p with number := 2 }).m11.length) (resetOK { p with number := 2 })
  have hl : (withShare x (resetOK { p with number := 2 })).m11.length = (resetOK { p with number := 2 }).m11.length := rfl
  rw [hl, h]
  rcases Keygen.forJ (r2Verify e) (List.range (resetOK { p with number := 2 }).m11.length) (resetOK { p with number := 2 }) with ⟨o, q⟩
  cases o with
  | err _ => rfl
  | panic => rfl
  | ok u =>
    simp only
    have h1 : (withShare x q).k = q.k := rfl
    have h2 : (withShare x q).rho = q.rho := rfl
    have h3 : (withShare x q).kc = q.kc := rfl
    have h4 : (withShare x q).keys.paillierPKs = q.keys.paillierPKs := rfl
    have h5 : (withShare x q).index = q.index := rfl
    have h6 : (withShare x q).ids = q.ids := rfl
    rw [h1, h2, h3, h4, h5, h6]
    cases q.k with
    | none => rfl
    | some k =>
      simp only
      cases ECPoint.new Ed.curve Ed.curve.Gx Ed.curve.Gy with
      | none => rfl
      | some G =>
        simp only
        cases ECPoint.scalarBaseMult Ed.curve k with
        | none => rfl
        | some Ri =>
          cases q.rho with
          | none => rfl
          | some rho =>
            cases q.kc.getD q.index none with
            | none => rfl
            | some K =>
              cases q.keys.paillierPKs.getD q.index none with
              | none => rfl
              | some n => exact Retry.forJ_map _ _ (r2Prove_share e x draws k rho K n Ri G) _ q

theorem finalStep_share (s : Party × Option Bytes) (j : Nat) :
    finalStep (withShare x s.1, s.2) j = ((finalStep s j).1, (withShare x (finalStep s j).2.1, (finalStep s j).2.2)) := by
  unfold finalStep
  simp only
  by_cases hj : j = s.1.index
  · rw [if_pos (show j = (withShare x s.1).index from hj), if_pos hj]
    rfl
  · rw [if_neg (show ¬ j = (withShare x s.1).index from hj), if_neg hj]
    simp only [withShare]
    cases parseWireMsg (s.1.m3.getD j []) with
    | none => rfl
    | some c =>
      cases c <;> try rfl
      simp only
      cases s.2 <;> rfl

theorem finalExec_share (p : Party) : finalExec e (withShare x p) = ((finalExec e p).1, withShare x (finalExec e p).2) := by
  unfold finalExec
  simp only
  have h0 : resetOK { withShare x p with number := 4 } = withShare x (resetOK { p with number := 4 }) := rfl
  rw [h0]
  have h := Retry.forJ_map finalStep (fun s => (withShare x s.1, s.2)) (finalStep_share x)
    (List.range (resetOK { p with number := 4 }).ids.length) (resetOK { p with number := 4 }, (resetOK { p with number := 4 }).si)
  have hl : (withShare x (resetOK { p with number := 4 })).ids.length = (resetOK { p with number := 4 }).ids.length := rfl
  have hs : (withShare x (resetOK { p with number := 4 })).si = (resetOK { p with number := 4 }).si := rfl
  simp only at h
  rw [hl, hs, h]
  rcases Keygen.forJ finalStep (List.range (resetOK { p with number := 4 }).ids.length)
    (resetOK { p with number := 4 }, (resetOK { p with number := 4 }).si) with ⟨o, q, s⟩
  cases o with
  | err _ => rfl
  | panic => rfl
  | ok u =>
    cases s with
    | none => rfl
    | some sum =>
      simp only
      have h1 : (withShare x q).r = q.r := rfl
      rw [h1]
      cases q.r with
      | none => rfl
      | some r =>
        simp only
        have h2 : (withShare x q).keys.eddsaPub = q.keys.eddsaPub := rfl
        have h3 : (withShare x q).m = q.m := rfl
        rw [h2, h3]
        cases q.keys.eddsaPub with
        | none => rfl
        | some A =>
          simp only
          by_cases hv : Ed.edwardsVerify e.sha512 A.x A.y (intBytes q.m) r (Ed.encodedBytesToBigInt sum) = true
          · simp only [if_pos hv]
            cases e.jsonSig ⟨Ed.bigIntToEncodedBytes (some r) ++ sum, intBytes r, intBytes (Ed.encodedBytesToBigInt sum), intBytes q.m⟩ <;>
              rfl
          · simp only [if_neg hv]
            rfl

theorem r1Accept_share (frm : Int) (msg : Bytes) (p : Party) :
    r1Accept frm msg (withShare x p) = ((r1Accept frm msg p).1, withShare x (r1Accept frm msg p).2) := by
  unfold r1Accept
  cases b64Decode msg with
  | none => rfl
  | some b =>
    simp only
    cases parseWireMsg b with
    | none => rfl
    | some c =>
      cases c <;> try rfl
      · simp only
        by_cases hh : 0 ≤ frm ∧ frm < p.m11.length
        · rw [if_pos (show 0 ≤ frm ∧ frm < (withShare x p).m11.length from hh), if_pos hh]; rfl
        · rw [if_neg (show ¬ (0 ≤ frm ∧ frm < (withShare x p).m11.length) from hh), if_neg hh]
      · simp only
        by_cases hh : 0 ≤ frm ∧ frm < p.m12.length
        · rw [if_pos (show 0 ≤ frm ∧ frm < (withShare x p).m12.length from hh), if_pos hh]; rfl
        · rw [if_neg (show ¬ (0 ≤ frm ∧ frm < (withShare x p).m12.length) from hh), if_neg hh]

theorem withParty_share {α : Type} (nf : Err) (f : Party → Res Err α × Party) (hf : ∀ p x, f (withShare x p) = ((f p).1, withShare x (f p).2))
    {key : Bytes} {r r' : Reg} (h : SameButShare key r r') :
    (withParty nf r key f).1 = (withParty nf r' key f).1 ∧ SameButShare key (withParty nf r key f).2 (withParty nf r' key f).2 := by
  obtain ⟨h1, h2⟩ := h
  cases hr : r key with
  | none =>
    rw [hr] at h2
    have hr' : r' key = none := by
      cases h' : r' key with
      | none => rfl
      | some q => rw [h'] at h2; simp at h2
    unfold withParty
    rw [hr, hr']
    exact ⟨rfl, h1, (by rw [hr, hr'] : (r key).map (withShare none) = (r' key).map (withShare none))⟩
  | some p =>
    cases hr' : r' key with
    | none => rw [hr, hr'] at h2; simp at h2
    | some q =>
      rw [hr, hr'] at h2
      have h3 : withShare none p = withShare none q := Option.some.inj h2
      have a := hf p none
      have b := hf q none
      rw [h3, b] at a
      have a1 : (f q).1 = (f p).1 := (Prod.mk.inj a).1
      have a2 : withShare none (f q).2 = withShare none (f p).2 := (Prod.mk.inj a).2
      unfold withParty
      rw [hr, hr']
      refine ⟨a1.symm, fun k hk => ?_, ?_⟩
      · simp only [set_other _ _ hk]; exact h1 k hk
      · simp only [set_same, Option.map_some]; rw [a2]

/-- C112. A call other than round 3 of this party gets the same answer whatever share of the key the party holds, and what it leaves behind
differs in the share only. -/
theorem C112_call (key : Bytes) (r r' : Reg) (h : SameButShare key r r') (op : Op) (ho : notRound3 key op) :
    (op.run e r).1 = (op.run e r').1 ∧ SameButShare key (op.run e r).2 (op.run e r').2 := by
  by_cases hk : op.key = key
  · have lift : ∀ (nf : Err) (f : Party → Res Err Bytes × Party), (∀ p x, f (withShare x p) = ((f p).1, withShare x (f p).2)) →
        Out.res (withParty nf r key f).1 = Out.res (withParty nf r' key f).1 ∧
          SameButShare key (withParty nf r key f).2 (withParty nf r' key f).2 :=
      fun nf f hf => ⟨by rw [(withParty_share nf f hf h).1], (withParty_share nf f hf h).2⟩
    have liftU : ∀ (nf : Err) (f : Party → Res Err Unit × Party), (∀ p x, f (withShare x p) = ((f p).1, withShare x (f p).2)) →
        Out.res (noData (withParty nf r key f).1) = Out.res (noData (withParty nf r' key f).1) ∧
          SameButShare key (withParty nf r key f).2 (withParty nf r' key f).2 :=
      fun nf f hf => ⟨by rw [(withParty_share nf f hf h).1], (withParty_share nf f hf h).2⟩
    have acc : ∀ (kind : Kind) (wrong : Err) (slots : Party → List Bytes) (put : Party → List Bytes → Party) (frm : Int) (msg : Bytes),
        (∀ p x, slots (withShare x p) = slots p) → (∀ p x l, put (withShare x p) l = withShare x (put p l)) → ∀ p x,
        accept kind wrong slots put frm msg (withShare x p) =
          ((accept kind wrong slots put frm msg p).1, withShare x (accept kind wrong slots put frm msg p).2) := by
      intro kind wrong slots put frm msg hs hp p x
      unfold accept
      rw [hs]
      cases b64Decode msg with
      | none => rfl
      | some b =>
        simp only
        by_cases hh : 0 ≤ frm ∧ frm < (slots p).length
        · simp only [if_pos hh, hp]
          cases parseWireMsg b with
          | none => rfl
          | some c =>
            simp only
            by_cases hc : c.kind = kind
            · simp only [if_pos hc]
            · simp only [if_neg hc]
        · simp only [if_neg hh]
    cases op <;> simp only [Op.key] at hk <;> subst hk
    case new key a =>
      have hn : ∀ r : Reg, ∃ o : Option Party, (∀ r', (NewLocalParty e r' key a).1 = (NewLocalParty e r key a).1 ∧
          (NewLocalParty e r' key a).2 = match o with | none => r' | some p => r'.set key (some p)) := by
        intro r
        unfold NewLocalParty
        by_cases h1 : a.partyCount < 0
        · simp only [if_pos h1]
          exact ⟨none, fun r' => ⟨trivial, rfl⟩⟩
        · simp only [if_neg h1]
          cases Keygen.buildIds a.pIDs 0 a.partyCount.toNat with
          | none => exact ⟨none, fun r' => by constructor <;> rfl⟩
          | some u =>
            simp only
            by_cases h2 : 0 ≤ a.partyIndex ∧ a.partyIndex < (PartyID.SortPartyIDs u none).length
            · simp only [if_pos h2]
              cases b64Decode a.keyData with
              | none => exact ⟨none, fun r' => by constructor <;> rfl⟩
              | some kb =>
                simp only
                cases e.jsonDec kb with
                | none => exact ⟨none, fun r' => by constructor <;> rfl⟩
                | some d =>
                  simp only
                  cases prepareKeys e a.partyIndex.toNat a.partyCount.toNat (PartyID.SortPartyIDs u none) a.refresh a.path d with
                  | err _ => exact ⟨none, fun r' => by constructor <;> rfl⟩
                  | panic => exact ⟨none, fun r' => by constructor <;> rfl⟩
                  | ok keys =>
                    simp only
                    cases hexDecode a.msg with
                    | none => exact ⟨none, fun r' => by constructor <;> rfl⟩
                    | some m =>
                      exact ⟨some (freshParty a.partyCount.toNat a.partyIndex.toNat (PartyID.SortPartyIDs u none) keys (beNat m)),
                        fun r' => by constructor <;> rfl⟩
            · simp only [if_neg h2]
              exact ⟨none, fun r' => ⟨trivial, rfl⟩⟩
      obtain ⟨o, ho'⟩ := hn r
      obtain ⟨-, b2⟩ := ho' r
      obtain ⟨c1, c2⟩ := ho' r'
      simp only [Op.run]
      rw [c1, b2, c2]
      refine ⟨rfl, ?_⟩
      cases o with
      | none => exact h
      | some p => exact ⟨fun k hk => by simp only [set_other _ _ hk]; exact h.1 k hk, by simp only [set_same]⟩
    case remove key =>
      obtain ⟨h1, h2⟩ := h
      simp only [Op.run, RemoveSignParty]
      cases hr : r key with
      | none =>
        have hr' : r' key = none := by
          rw [hr] at h2
          cases h' : r' key with
          | none => rfl
          | some q => rw [h'] at h2; simp at h2
        rw [hr']
        exact ⟨rfl, h1, (by rw [hr, hr'] : (r key).map (withShare none) = (r' key).map (withShare none))⟩
      | some p =>
        cases hr' : r' key with
        | none => rw [hr, hr'] at h2; simp at h2
        | some q =>
          exact ⟨rfl, fun k hk => by simp only [set_other _ _ hk]; exact h1 k hk, by simp only [set_same]⟩
    case exec1 key rnd => exact lift _ _ fun p x => r1Exec_share e x rnd p
    case get1 key t => exact lift _ _ fun p x => rfl
    case acc1 key f m => exact liftU _ _ fun p x => r1Accept_share x f m p
    case fin1 key => exact liftU _ _ fun p x => rfl
    case exec2 key d => exact liftU _ _ fun p x => r2Exec_share e x d p
    case get2 key t => exact lift _ _ fun p x => rfl
    case acc2 key f m => exact liftU _ _ (acc _ _ _ _ f m (fun _ _ => rfl) fun _ _ _ => rfl)
    case fin2 key => exact liftU _ _ fun p x => rfl
    case exec3 key z => exact absurd rfl ho
    case acc3 key f m => exact liftU _ _ (acc _ _ _ _ f m (fun _ _ => rfl) fun _ _ _ => rfl)
    case fin3 key => exact liftU _ _ fun p x => rfl
    case final key => exact lift _ _ fun p x => finalExec_share e x p
  · have h1 := h.1 op.key hk
    obtain ⟨a, b⟩ := run_local e op r r' h1
    refine ⟨a, fun k hk' => ?_, ?_⟩
    · by_cases hko : k = op.key
      · rw [hko]; exact b
      · rw [run_other e op r k hko, run_other e op r' k hko]; exact h.1 k hk'
    · rw [run_other e op r key (Ne.symm hk), run_other e op r' key (Ne.symm hk)]; exact h.2

/-- C112. Whatever is called, in whatever order and with whatever draws - by peers, by clients of other parties, out of turn - as long as this
party does not run round 3, all answers are the same as if it held any other share of the key. -/
theorem C112_history (key : Bytes) : ∀ (ops : List Op) (r r' : Reg), SameButShare key r r' → (∀ op ∈ ops, notRound3 key op) →
    answers e ops r = answers e ops r' ∧ SameButShare key (runOps e ops r) (runOps e ops r')
  | [], r, r', h, _ => ⟨rfl, h⟩
  | op :: t, r, r', h, ho => by
    obtain ⟨h1, h2⟩ := C112_call e key r r' h op (ho op (by simp))
    obtain ⟨h3, h4⟩ := C112_history key t _ _ h2 fun o hm => ho o (by simp [hm])
    exact ⟨by unfold answers; rw [h1, h3], h4⟩

/-! ### Creation -/

/-- the save data with another share -/
def dataShare (y : Option Int) (d : Keygen.SaveData) : Keygen.SaveData := { d with privXi := y }

theorem buildLoop_share (y : Option Int) (src : Keygen.SaveData) (m : Bytes → Option Nat) : ∀ (l : List PartyID) (j : Nat) (d : Keygen.SaveData),
    Keygen.buildLoop (dataShare y src) m j l (dataShare y d) =
      (match Keygen.buildLoop src m j l d with
        | .ok d => .ok (dataShare y d)
        | .err k => .err k
        | .panic => .panic)
  | [], _, _ => rfl
  | id :: t, j, d => by
    unfold Keygen.buildLoop
    cases m (hexEncode (id.key.getD [])) with
    | none => rfl
    | some s =>
      have q1 : (dataShare y d).ks = d.ks := rfl
      have q2 : (dataShare y d).pubXj = d.pubXj := rfl
      have q3 : (dataShare y src).paillierPKs = src.paillierPKs := rfl
      have q4 : (dataShare y src).ringPedersenPKs = src.ringPedersenPKs := rfl
      have q5 : (dataShare y d).paillierPKs = d.paillierPKs := rfl
      have q6 : (dataShare y d).ringPedersenPKs = d.ringPedersenPKs := rfl
      simp only
      rw [q1, q2, q3, q4, q5, q6]
      cases d.ks[s]? with
      | none => rfl
      | some k =>
        cases d.pubXj[s]? with
        | none => rfl
        | some X =>
          cases src.paillierPKs[s]? with
          | none => rfl
          | some n =>
            cases src.ringPedersenPKs[s]? with
            | none => rfl
            | some r =>
              simp only
              by_cases hh : j < d.ks.length ∧ j < d.pubXj.length ∧ j < d.paillierPKs.length ∧ j < d.ringPedersenPKs.length
              · rw [if_pos hh, if_pos hh]
                exact buildLoop_share y src m t (j + 1) { d with
                  ks := d.ks.set j k
                  pubXj := d.pubXj.set j X
                  paillierPKs := d.paillierPKs.set j n
                  ringPedersenPKs := d.ringPedersenPKs.set j r }
              · rw [if_neg hh, if_neg hh]

theorem build_share (y : Option Int) (src : Keygen.SaveData) (ids : List PartyID) :
    Keygen.BuildLocalSaveDataSubset (dataShare y src) ids =
      (match Keygen.BuildLocalSaveDataSubset src ids with
        | .ok d => .ok (dataShare y d)
        | .err k => .err k
        | .panic => .panic) := by
  unfold Keygen.BuildLocalSaveDataSubset
  have h : (dataShare y src).ks = src.ks := rfl
  rw [h]
  cases Keygen.keysToIndices src.ks 0 (fun _ => none) with
  | none => rfl
  | some m =>
    exact buildLoop_share y src m ids 0 { src with
      paillierPKs := List.replicate ids.length none
      ringPedersenPKs := List.replicate ids.length none }

theorem prepare_share {idx n : Nat} {ids : List PartyID} {refresh path : Bytes} {d k k' : Keygen.SaveData}
    (h : prepareKeys e idx n ids refresh path d = .ok k) (h' : prepareKeys e idx n ids refresh path (dataShare x d) = .ok k') :
    dataShare none k = dataShare none k' := by
  unfold prepareKeys at h h'
  by_cases hp : (split 47 path).length ≠ 5
  · rw [if_pos hp] at h; cases h
  rw [if_neg hp] at h h'
  simp only [dataShare] at h'
  cases hc : d.chainCodes[idx]? with
  | none => rw [hc] at h; cases h
  | some o =>
    rw [hc] at h h'
    cases o with
    | none => cases h
    | some code =>
      cases hpr : d.privXi with
      | none => rw [hpr] at h; cases h
      | some priv =>
        rw [hpr] at h
        cases x with
        | none => cases h'
        | some priv' =>
          cases hpu : d.pubXj[idx]? with
          | none => rw [hpu] at h; cases h
          | some o =>
            rw [hpu] at h h'
            cases o with
            | none => cases h
            | some pub =>
              cases hg : d.eddsaPub with
              | none => rw [hg] at h; cases h
              | some deduce =>
                rw [hg] at h h'
                simp only at h h'
                cases hd1 : Ckd.deriveEddsaChildPrivKey e.ckd priv pub deduce (intBytes code) path with
                | err _ => rw [hd1] at h; cases h
                | panic => rw [hd1] at h; cases h
                | ok c1 =>
                  rw [hd1] at h
                  cases hd2 : Ckd.deriveEddsaChildPrivKey e.ckd priv' pub deduce (intBytes code) path with
                  | err _ => rw [hd2] at h'; cases h'
                  | panic => rw [hd2] at h'; cases h'
                  | ok c2 =>
                    rw [hd2] at h'
                    simp only at h h'
                    cases hps : derivePubs e.ckd deduce path d.pubXj d.chainCodes with
                    | err _ => rw [hps] at h; cases h
                    | panic => rw [hps] at h; cases h
                    | ok pubs =>
                      rw [hps] at h h'
                      simp only at h h'
                      cases hx : hexDecode refresh with
                      | none => rw [hx] at h; cases h
                      | some payload =>
                        rw [hx] at h h'
                        simp only at h h'
                        cases hr : parseRefresh payload (e.hexTail refresh) 1376 n with
                        | none => rw [hr] at h; cases h
                        | some q =>
                          rw [hr] at h h'
                          simp only at h h'
                          have e1 := build_share (some (beNat c1.1 : Int)) { d with
                            privXi := none
                            pubXj := pubs
                            eddsaPub := some deduce
                            paillierPKs := q.1
                            ringPedersenPKs := q.2 } ids
                          have e2 := build_share (some (beNat c2.1 : Int)) { d with
                            privXi := none
                            pubXj := pubs
                            eddsaPub := some deduce
                            paillierPKs := q.1
                            ringPedersenPKs := q.2 } ids
                          simp only [dataShare] at e1 e2
                          rw [e1] at h
                          rw [e2] at h'
                          cases hb : Keygen.BuildLocalSaveDataSubset { d with
                            privXi := none
                            pubXj := pubs
                            eddsaPub := some deduce
                            paillierPKs := q.1
                            ringPedersenPKs := q.2 } ids with
                          | err _ => rw [hb] at h; cases h
                          | panic => rw [hb] at h; cases h
                          | ok dd =>
                            rw [hb] at h h'
                            rw [← Res.ok.inj h, ← Res.ok.inj h']
                            rfl

/-- C112. Two creation calls that are answered Ok, with key data that differ in the share only, leave behind parties that differ in the share only. -/
theorem C112_creation (key : Bytes) (r r' : Reg) (h : SameButShare key r r') (a a' : NewArgs) (b b' : Bytes) (d : Keygen.SaveData)
    (ha : a' = { a with keyData := a'.keyData }) (hb : b64Decode a.keyData = some b) (hb' : b64Decode a'.keyData = some b')
    (hd : e.jsonDec b = some d) (hd' : e.jsonDec b' = some { d with privXi := x })
    (ho : (NewLocalParty e r key a).1 = .ok ()) (ho' : (NewLocalParty e r' key a').1 = .ok ()) :
    SameButShare key (NewLocalParty e r key a).2 (NewLocalParty e r' key a').2 := by
  have form : ∀ (r : Reg) (a : NewArgs) (b : Bytes) (d : Keygen.SaveData), b64Decode a.keyData = some b → e.jsonDec b = some d →
      (NewLocalParty e r key a).1 = .ok () → ∃ u k m, Keygen.buildIds a.pIDs 0 a.partyCount.toNat = some u ∧
        prepareKeys e a.partyIndex.toNat a.partyCount.toNat (PartyID.SortPartyIDs u none) a.refresh a.path d = .ok k ∧
        hexDecode a.msg = some m ∧ (NewLocalParty e r key a).2 = r.set key (some (freshParty a.partyCount.toNat
          a.partyIndex.toNat (PartyID.SortPartyIDs u none) k (beNat m))) := by
    intro r a b d hb hd ho
    unfold NewLocalParty at ho ⊢
    by_cases h1 : a.partyCount < 0
    · simp only [if_pos h1] at ho; cases ho
    simp only [if_neg h1] at ho ⊢
    cases hu : Keygen.buildIds a.pIDs 0 a.partyCount.toNat with
    | none => rw [hu] at ho; cases ho
    | some u =>
      rw [hu] at ho
      simp only at ho ⊢
      by_cases h2 : 0 ≤ a.partyIndex ∧ a.partyIndex < (PartyID.SortPartyIDs u none).length
      · simp only [if_pos h2, hb, hd] at ho ⊢
        cases hk : prepareKeys e a.partyIndex.toNat a.partyCount.toNat (PartyID.SortPartyIDs u none) a.refresh a.path d with
        | err _ => rw [hk] at ho; cases ho
        | panic => rw [hk] at ho; cases ho
        | ok k =>
          rw [hk] at ho
          simp only at ho ⊢
          cases hm : hexDecode a.msg with
          | none => rw [hm] at ho; cases ho
          | some m => exact ⟨u, k, m, rfl, hk, rfl, rfl⟩
      · simp only [if_neg h2] at ho; cases ho
  obtain ⟨u, k, m, c1, c2, c3, c4⟩ := form r a b d hb hd ho
  obtain ⟨u', k', m', d1, d2, d3, d4⟩ := form r' a' b' _ hb' hd' ho'
  rw [ha] at d1 d2 d3
  simp only at d1 d2 d3
  rw [c1] at d1
  cases d1
  rw [c3] at d3
  cases d3
  have hk := prepare_share e x c2 d2
  rw [c4, d4]
  refine ⟨fun k hk => by rw [set_other _ _ hk, set_other _ _ hk]; exact h.1 k hk, ?_⟩
  rw [set_same, set_same, ha]
  simp only [Option.map_some, Option.some.injEq]
  show ({ freshParty _ _ _ k _ with keys := dataShare none k } : Party) = { freshParty _ _ _ k' _ with keys := dataShare none k' }
  rw [hk]
  rfl

/-! ### Round 3 -/

/-- C112. Round 3 is where the share is read: two parties that differ in the share only, and whose round 3 is answered Ok, hash the same R, hence the
same challenge c, and answer c x + k and c x' + k modulo the group order. -/
theorem C112_round3 {zs : Nat → Int} {r r' r1 r1' : Reg} {key w w' : Bytes} {p : Party} {x x' k : Int} (hk : r key = some p)
    (hk' : r' key = some (withShare (some x') p)) (hx : p.keys.privXi = some x) (hx0 : 0 ≤ x ∧ x < 2 ^ 256) (hx0' : 0 ≤ x' ∧ x' < 2 ^ 256)
    (hn : p.k = some k) (hn0 : 0 ≤ k ∧ k < 2 ^ 256) (h : OnsignRound3Exec e zs r key = (.ok w, r1))
    (h' : OnsignRound3Exec e zs r' key = (.ok w', r1')) :
    ∃ (R : Bytes) (A : ECPoint) (c : Nat), p.keys.eddsaPub = some A ∧
      c = spec.challenge e.sha512 R (Ed.ecPointToEncodedBytes A.x A.y) (intBytes p.m) ∧
      w = wireBytes (.sg3 (intBytes (((c * x.natAbs + k.natAbs) % Ed.ord : Nat) : Int))) ∧
      w' = wireBytes (.sg3 (intBytes (((c * x'.natAbs + k.natAbs) % Ed.ord : Nat) : Int))) := by
  obtain ⟨R, A, q, l1, a1, b1, c1, d1⟩ := C78_answer hk hx hx0 hn hn0 h
  obtain ⟨R', A', q', l1', a1', b1', c1', d1'⟩ := C78_answer hk' (rfl : (withShare (some x') p).keys.privXi = some x') hx0'
    (hn : (withShare (some x') p).k = some k) hn0 h'
  have hA : p.keys.eddsaPub = some A' := a1'
  rw [a1] at hA
  cases hA
  have hq : q.r = q'.r := by
    unfold OnsignRound3Exec at h h'
    rw [withParty_some _ _ hk, Prod.mk.injEq] at h
    rw [withParty_some _ _ hk', Prod.mk.injEq] at h'
    obtain ⟨E, B, G, g1, g2, -, g4, -⟩ := r3Exec_ok h.1
    obtain ⟨E', B', G', g1', g2', -, g4', -⟩ := r3Exec_ok h'.1
    rw [g1] at g1'
    cases g1'
    have hst : r3Step e zs G (resetOK { withShare (some x') p with number := 3 }) = r3Step e zs G (resetOK { p with number := 3 }) := rfl
    have hkk : (withShare (some x') p).k = p.k := rfl
    have hm2 : (withShare (some x') p).m2 = p.m2 := rfl
    rw [hst, hkk, hm2, g2] at g2'
    have hE : E = E' := (Prod.mk.inj g2').2
    have e1 : q = (r3Exec e zs p).2 := by
      rw [← h.2, set_same] at b1
      exact (Option.some.inj b1).symm
    have e2 : q' = (r3Exec e zs (withShare (some x') p)).2 := by
      rw [← h'.2, set_same] at b1'
      exact (Option.some.inj b1').symm
    rw [e1, e2, g4, g4', hE]
  rw [c1, c1'] at hq
  have hR : R = R' := leNat_inj R R' (by rw [l1, l1']) (by exact_mod_cast Option.some.inj hq)
  subst hR
  exact ⟨R, A, _, a1, rfl, d1, d1'⟩

/-! ### Concrete cases -/

/-- C112, non-vacuity: any party, and the same party with another share, are such a pair, and they are different. -/
theorem C112_example (p : Party) (key : Bytes) (x' : Option Int) :
    SameButShare key (fun k => if k = key then some p else none) (fun k => if k = key then some (withShare x' p) else none) ∧
      (p.keys.privXi ≠ x' → p ≠ withShare x' p) := by
  refine ⟨⟨fun k hk => by simp only [if_neg hk], by simp only [if_true, Option.map_some]; rfl⟩, fun hne he => hne ?_⟩
  exact congrArg (fun q : Party => q.keys.privXi) he

end Tss.Onsign
