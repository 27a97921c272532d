import Verif.Lemmas.Retry
import Verif.Lemmas.EC
import Verif.Props.World
import Verif.Props.ShareUse
import Verif.Props.OnsignNew
import Verif.Props.KeygenHonest
/-
C113: of a root key only its residue modulo the group order matters, as long as it fits in 32 bytes.
-/
namespace Tss.Keygen
open Tss Text Wire

namespace spec

/-- The party with another share of the key. -/
def withShare (x : Int) (p : Party) : Party := { p with save := { p.save with privXi := some x } }

/-- The registries are the same, but for the share that the party named `key` holds, which is another representative of the same residue. -/
def SameResidue (N : Int) (key : Bytes) (r r' : Reg) : Prop :=
  (∀ k, k ≠ key → r k = r' k) ∧
    (r key = none ∧ r' key = none ∨
      ∃ (p : Party) (x x' : Int), p.save.privXi = some x ∧ x ≡ x' [ZMOD N] ∧ r key = some p ∧ r' key = some (withShare x' p))

/-- The answers to calls made one after the other. -/
def answers (e : Env) : List Op → Reg → List Out
  | [], _ => []
  | op :: t, r => (op.run e r).1 :: answers e t (op.run e r).2

/-- The registry after calls made one after the other. -/
def after (e : Env) : List Op → Reg → Reg
  | [], r => r
  | op :: t, r => after e t (op.run e r).2

/-- Not round 4 of the party named `key` (whose answer is the save data, the share included). -/
def notRound4 (key : Bytes) : Op → Prop
  | .exec4 k => k ≠ key
  | _ => True

/-- The call with another root key, if it is the creation of the party named `key`. -/
def withRoot (key root' : Bytes) : Op → Op
  | .new k i n ids root => .new k i n ids (if k = key then root' else root)
  | op => op

end spec
open spec

/-- A step that hands the share through. -/
def Blind {α : Type} (N : Int) (f : Party → Res Err α × Party) : Prop :=
  ∀ (p : Party) (x x' : Int), p.save.privXi = some x → x ≡ x' [ZMOD N] →
    f (withShare x' p) = ((f p).1, withShare x' (f p).2) ∧ (f p).2.save.privXi = some x

section
variable {e : Env} {G : Type} [AddCommGroup G] (L : Lawful e.c G)

include L in
theorem base_congr {x x' : Int} (h : x ≡ x' [ZMOD e.c.N]) : ECPoint.scalarBaseMult e.c x = ECPoint.scalarBaseMult e.c x' := by
  rw [L.scalarBaseMult_pt, L.scalarBaseMult_pt, ← Lawful.emod_smul L.N_base x, ← Lawful.emod_smul L.N_base x', h]

include L in
theorem r1_blind (rnd : Rand1) : Blind e.c.N (r1Exec e rnd) := by
  intro p x x' hx hc
  unfold r1Exec
  have h1 : (resetOK { p with number := 1 }).save.privXi.getD rnd.priv = x := by
    show p.save.privXi.getD rnd.priv = x
    rw [hx]; rfl
  have h2 : (resetOK { withShare x' p with number := 1 }).save.privXi.getD rnd.priv = x' := rfl
  simp only
  rw [h1, h2, base_congr L hc]
  cases ECPoint.scalarBaseMult e.c x' with
  | none => exact ⟨rfl, rfl⟩
  | some X =>
    cases ECPoint.scalarBaseMult e.c rnd.tau with
    | none => exact ⟨rfl, rfl⟩
    | some A => exact ⟨rfl, rfl⟩

/-- a loop that hands the share through -/
theorem loop_blind (step : Party → Nat → Res Err Unit × Party) (h : ∀ (j : Nat) (p : Party) (x' : Int),
      step (withShare x' p) j = ((step p j).1, withShare x' (step p j).2) ∧ (step p j).2.save.privXi = p.save.privXi) (l : List Nat) (p : Party) (x' : Int) :
    forJ step l (withShare x' p) = ((forJ step l p).1, withShare x' (forJ step l p).2) ∧ (forJ step l p).2.save.privXi = p.save.privXi :=
  ⟨Retry.forJ_map step (withShare x') (fun s j => (h j s x').1) l p,
    Retry.forJ_inv (I := fun q => q.save.privXi = p.save.privXi) step (fun s j hs => by rw [(h j s x').2]; exact hs) l p rfl⟩

theorem r2Step_blind (j : Nat) (p : Party) (x' : Int) :
    r2Step (withShare x' p) j = ((r2Step p j).1, withShare x' (r2Step p j).2) ∧ (r2Step p j).2.save.privXi = p.save.privXi := by
  unfold r2Step
  have h : (withShare x' p).m1 = p.m1 := rfl
  rw [h]
  cases parseWireMsg (p.m1.getD j []) with
  | none => exact ⟨rfl, rfl⟩
  | some c => cases c <;> exact ⟨rfl, rfl⟩

theorem r3Step_blind (e : Env) (j : Nat) (p : Party) (x' : Int) :
    r3Step e (withShare x' p) j = ((r3Step e p j).1, withShare x' (r3Step e p j).2) ∧ (r3Step e p j).2.save.privXi = p.save.privXi := by
  unfold r3Step
  have h0 : (withShare x' p).index = p.index := rfl
  have h : (withShare x' p).m2 = p.m2 := rfl
  rw [h, h0]
  by_cases hj : j = p.index
  · simp only [if_pos hj]; constructor <;> first | rfl | trivial
  simp only [if_neg hj]
  cases parseWireMsg (p.m2.getD j []) with
  | none => exact ⟨rfl, rfl⟩
  | some c =>
    cases c with
    | kg2 ssid srid xx xy ax ay u a b c =>
      simp only
      cases ECPoint.new e.c (beNat ax) (beNat ay) with
      | none => exact ⟨rfl, rfl⟩
      | some A =>
        simp only
        cases ECPoint.new e.c (beNat xx) (beNat xy) with
        | none => exact ⟨rfl, rfl⟩
        | some X =>
          simp only
          have q1 : (withShare x' p).ssid = p.ssid := rfl
          have q2 : (withShare x' p).V = p.V := rfl
          rw [q1, q2]
          by_cases a1 : ssid ≠ p.ssid
          · simp only [if_pos a1]; constructor <;> first | rfl | trivial
          simp only [if_neg a1]
          by_cases a2 : commitHash e.H p.ssid j srid X A u ≠ p.V.getD j []
          · simp only [if_pos a2]; constructor <;> first | rfl | trivial
          simp only [if_neg a2]
          constructor <;> first | rfl | trivial
    | _ => exact ⟨rfl, rfl⟩

theorem r4Step_blind (e : Env) (j : Nat) (p : Party) (x' : Int) :
    r4Step e (withShare x' p) j = ((r4Step e p j).1, withShare x' (r4Step e p j).2) ∧ (r4Step e p j).2.save.privXi = p.save.privXi := by
  unfold r4Step
  have q0 : (withShare x' p).index = p.index := rfl
  have q1 : (withShare x' p).m3 = p.m3 := rfl
  have q2 : (withShare x' p).save.pubXj = p.save.pubXj := rfl
  have q3 : (withShare x' p).payload = p.payload := rfl
  have q4 : (withShare x' p).ssid = p.ssid := rfl
  have q5 : (withShare x' p).srid = p.srid := rfl
  rw [q0, q1, q2, q3, q4, q5]
  by_cases hj : j = p.index
  · simp only [if_pos hj]; constructor <;> first | rfl | trivial
  simp only [if_neg hj]
  cases parseWireMsg (p.m3.getD j []) with
  | none => exact ⟨rfl, rfl⟩
  | some c =>
    simp only
    cases p.save.pubXj.getD j none with
    | none => exact ⟨rfl, rfl⟩
    | some X =>
      cases p.payload.getD j none with
      | none => exact ⟨rfl, rfl⟩
      | some pl =>
        cases c with
        | kg3 s a b =>
          simp only
          cases Schnorr.Verify e.c (beNat s) pl.commitedA X (challenge e p.ssid p.srid j X pl.commitedA) with
          | ok b => cases b <;> exact ⟨rfl, rfl⟩
          | err _ => exact ⟨rfl, rfl⟩
          | panic => exact ⟨rfl, rfl⟩
        | _ => exact ⟨rfl, rfl⟩

theorem r2_blind (N : Int) : Blind N r2Exec := by
  intro p x x' hx _
  unfold r2Exec
  simp only
  have h0 : resetOK { withShare x' p with number := 2 } = withShare x' (resetOK { p with number := 2 }) := rfl
  obtain ⟨h1, h2⟩ := loop_blind r2Step r2Step_blind (List.range (resetOK { p with number := 2 }).m1.length) (resetOK { p with number := 2 }) x'
  have h3 : (resetOK { p with number := 2 }).save.privXi = some x := hx
  have hl : (withShare x' (resetOK { p with number := 2 })).m1.length = (resetOK { p with number := 2 }).m1.length := rfl
  rw [h0, hl, h1]
  rw [h3] at h2
  generalize forJ r2Step (List.range (resetOK { p with number := 2 }).m1.length) (resetOK { p with number := 2 }) = w at h2 ⊢
  rcases w with ⟨o, q⟩
  change q.save.privXi = some x at h2
  cases o with
  | err _ => exact ⟨rfl, h2⟩
  | panic => exact ⟨rfl, h2⟩
  | ok _ =>
    simp only
    have q1 : (withShare x' q).save.pubXj = q.save.pubXj := rfl
    have q2 : (withShare x' q).index = q.index := rfl
    have q3 : (withShare x' q).commitedA = q.commitedA := rfl
    rw [q1, q2, q3]
    cases q.save.pubXj.getD q.index none with
    | none => exact ⟨rfl, h2⟩
    | some X =>
      cases hA : q.commitedA with
      | none => exact ⟨rfl, h2⟩
      | some A => exact ⟨rfl, h2⟩

theorem r3_blind (e : Env) : Blind e.c.N (r3Exec e) := by
  intro p x x' hx hc
  unfold r3Exec
  simp only
  have h0 : resetOK { withShare x' p with number := 3 } = withShare x' (resetOK { p with number := 3 }) := rfl
  obtain ⟨h1, h2⟩ := loop_blind (r3Step e) (r3Step_blind e) (List.range (resetOK { p with number := 3 }).m2.length) (resetOK { p with number := 3 }) x'
  have h3 : (resetOK { p with number := 3 }).save.privXi = some x := hx
  have hl : (withShare x' (resetOK { p with number := 3 })).m2.length = (resetOK { p with number := 3 }).m2.length := rfl
  rw [h0, hl, h1]
  rw [h3] at h2
  generalize forJ (r3Step e) (List.range (resetOK { p with number := 3 }).m2.length) (resetOK { p with number := 3 }) = w at h2 ⊢
  rcases w with ⟨o, q⟩
  change q.save.privXi = some x at h2
  cases o with
  | err _ => exact ⟨rfl, h2⟩
  | panic => exact ⟨rfl, h2⟩
  | ok _ =>
    simp only
    have q1 : (withShare x' q).save.pubXj = q.save.pubXj := rfl
    have q2 : (withShare x' q).index = q.index := rfl
    have q3 : (withShare x' q).commitedA = q.commitedA := rfl
    have q4 : (withShare x' q).tau = q.tau := rfl
    have q5 : (withShare x' q).save.privXi = some x' := rfl
    have q6 : (withShare x' q).ssid = q.ssid := rfl
    have q7 : (withShare x' q).srid = q.srid := rfl
    rw [q1, q2, q3, q4, q5, q6, q7, h2]
    cases q.save.pubXj.getD q.index none with
    | none => exact ⟨rfl, h2⟩
    | some X =>
      cases hA : q.commitedA with
      | none => exact ⟨rfl, h2⟩
      | some A =>
        cases ht : q.tau with
        | none => exact ⟨rfl, h2⟩
        | some tau =>
          simp only
          have hp : Schnorr.Prove e.c.N tau (challenge e q.ssid q.srid q.index X A) x' =
              Schnorr.Prove e.c.N tau (challenge e q.ssid q.srid q.index X A) x :=
            (Int.ModEq.add_left tau (hc.mul_left _)).symm
          rw [hp]
          exact ⟨rfl, h2⟩

end

theorem accept_blind (N : Int) (kind : Kind) (slots : Party → List Bytes) (put : Party → List Bytes → Party)
    (hs : ∀ p x, slots (withShare x p) = slots p) (hp : ∀ p x l, put (withShare x p) l = withShare x (put p l))
    (hq : ∀ p l, (put p l).save = p.save) (frm : Int) (msg : Bytes) : Blind N (accept kind slots put frm msg) := by
  intro p x x' hx _
  unfold accept
  rw [hs]
  cases b64Decode msg with
  | none => exact ⟨rfl, hx⟩
  | some b =>
    simp only
    by_cases hh : 0 ≤ frm ∧ frm < (slots p).length
    · simp only [if_pos hh, hp]
      have hx' : (put p ((slots p).set frm.toNat b)).save.privXi = some x := by rw [hq]; exact hx
      cases parseWireMsg b with
      | none => exact ⟨rfl, hx'⟩
      | some c =>
        simp only
        by_cases hc : c.kind = kind
        · simp only [if_pos hc]; exact ⟨trivial, hx'⟩
        · simp only [if_neg hc]; exact ⟨trivial, hx'⟩
    · simp only [if_neg hh]; exact ⟨trivial, hx⟩

theorem withParty_blind {α : Type} {N : Int} (f : Party → Res Err α × Party) (hf : Blind N f)
    {key : Bytes} {r r' : Reg} (h : SameResidue N key r r') :
    (withParty r key f).1 = (withParty r' key f).1 ∧ SameResidue N key (withParty r key f).2 (withParty r' key f).2 := by
  obtain ⟨h1, ⟨h2, h3⟩ | ⟨p, x, x', hx, hc, h2, h3⟩⟩ := h
  · rw [withParty_none f h2, withParty_none f h3]
    exact ⟨rfl, h1, Or.inl ⟨h2, h3⟩⟩
  · rw [withParty_some f h2, withParty_some f h3]
    obtain ⟨a, b⟩ := hf p x x' hx hc
    refine ⟨by rw [a], fun k hk => by simp only [set_other _ _ hk]; exact h1 k hk, Or.inr ⟨(f p).2, x, x', b, hc, by simp, ?_⟩⟩
    simp only [set_same]
    rw [a]

/-- C113. Every call but round 4 of this party gets the same answer when the share it holds is replaced by another representative of the same residue
modulo the group order; and what the call leaves behind differs in that representative only. -/
theorem C113_call {e : Env} {G : Type} [AddCommGroup G] (L : Lawful e.c G) (key : Bytes) (r r' : Reg) (h : SameResidue e.c.N key r r') (op : Op)
    (ho : notRound4 key op) : (op.run e r).1 = (op.run e r').1 ∧ SameResidue e.c.N key (op.run e r).2 (op.run e r').2 := by
  by_cases hk : op.key = key
  · have lift : ∀ (f : Party → Res Err Bytes × Party), Blind e.c.N f →
        Out.res (withParty r key f).1 = Out.res (withParty r' key f).1 ∧ SameResidue e.c.N key (withParty r key f).2 (withParty r' key f).2 :=
      fun f hf => ⟨by rw [(withParty_blind f hf h).1], (withParty_blind f hf h).2⟩
    have liftU : ∀ (f : Party → Res Err Unit × Party), Blind e.c.N f →
        Out.res (noData (withParty r key f).1) = Out.res (noData (withParty r' key f).1) ∧
          SameResidue e.c.N key (withParty r key f).2 (withParty r' key f).2 :=
      fun f hf => ⟨by rw [(withParty_blind f hf h).1], (withParty_blind f hf h).2⟩
    cases op <;> simp only [Op.key] at hk <;> subst hk
    case new key i n ids root =>
      simp only [Op.run]
      unfold NewLocalParty
      by_cases h1 : n < 0
      · simp only [if_pos h1]; exact ⟨trivial, h⟩
      simp only [if_neg h1]
      cases buildIds ids 0 n.toNat with
      | none => exact ⟨rfl, h⟩
      | some u =>
        simp only
        by_cases h2 : 0 ≤ i ∧ i < (PartyID.SortPartyIDs u none).length
        · simp only [if_pos h2]
          cases hexDecode root with
          | none => exact ⟨rfl, h⟩
          | some b =>
            exact ⟨rfl, fun k hk => by simp only [set_other _ _ hk]; exact h.1 k hk, Or.inr ⟨freshParty n.toNat i.toNat (PartyID.SortPartyIDs u none) (beNat b),
              beNat b, beNat b, rfl, rfl, by simp, by simp only [set_same]; rfl⟩⟩
        · simp only [if_neg h2]; exact ⟨trivial, h⟩
    case remove key =>
      obtain ⟨h1, ⟨h2, h3⟩ | ⟨p, x, x', hx, hc, h2, h3⟩⟩ := h
      · simp only [Op.run, RemoveParty, h2, h3]
        exact ⟨trivial, h1, Or.inl ⟨h2, h3⟩⟩
      · simp only [Op.run, RemoveParty, h2, h3]
        exact ⟨trivial, fun k hk => by simp only [set_other _ _ hk]; exact h1 k hk, Or.inl ⟨by simp, by simp⟩⟩
    case saveChain key codes =>
      refine liftU _ ?_
      intro p x x' hx _
      have q1 : (withShare x' p).save.pubXj = p.save.pubXj := rfl
      simp only
      rw [q1]
      by_cases hl : (split 124 codes).length ≠ p.save.pubXj.length
      · simp only [if_pos hl]; exact ⟨trivial, hx⟩
      simp only [if_neg hl]
      cases parseCodes 0 (split 124 codes) with
      | ok l => exact ⟨rfl, hx⟩
      | err _ => exact ⟨rfl, hx⟩
      | panic => exact ⟨rfl, hx⟩
    case exec1 key rnd => exact lift _ (r1_blind L rnd)
    case exec2 key => exact lift _ (r2_blind _)
    case exec3 key => exact lift _ (r3_blind e)
    case exec4 key => exact absurd rfl ho
    case acc rd key f m =>
      cases rd
      · exact liftU _ (accept_blind _ .kg1 (·.m1) (fun p l => { p with m1 := l }) (fun _ _ => rfl) (fun _ _ _ => rfl) (fun _ _ => rfl) f m)
      · exact liftU _ (accept_blind _ .kg2 (·.m2) (fun p l => { p with m2 := l }) (fun _ _ => rfl) (fun _ _ _ => rfl) (fun _ _ => rfl) f m)
      · exact liftU _ (accept_blind _ .kg3 (·.m3) (fun p l => { p with m3 := l }) (fun _ _ => rfl) (fun _ _ _ => rfl) (fun _ _ => rfl) f m)
    case fin rd key => cases rd <;> exact liftU _ fun p x x' hx _ => ⟨rfl, hx⟩
  · have h1 := h.1 op.key hk
    obtain ⟨a, b⟩ := run_local e op r r' h1
    refine ⟨a, fun k hk' => ?_, ?_⟩
    · by_cases hko : k = op.key
      · rw [hko]; exact b
      · rw [run_other e op r k hko, run_other e op r' k hko]; exact h.1 k hk'
    · rw [run_other e op r key (Ne.symm hk), run_other e op r' key (Ne.symm hk)]; exact h.2

/-- C113. Round 4: answered Ok with one representative iff with the other, with the same error otherwise, and the save data that are returned
differ in the representative only (`d` is what is stored without the share). -/
theorem C113_round4 {e : Env} (hj : ∀ d, e.jsonEnc d ≠ none) (key : Bytes) (r r' : Reg) (h : SameResidue e.c.N key r r') :
    SameResidue e.c.N key (KeygenRound4Exec e r key).2 (KeygenRound4Exec e r' key).2 ∧
      ((KeygenRound4Exec e r key).1 = (KeygenRound4Exec e r' key).1 ∨
        ∃ (d : SaveData) (x x' : Int) (b b' : Bytes), x ≡ x' [ZMOD e.c.N] ∧
          e.jsonEnc { d with privXi := some x } = some b ∧ e.jsonEnc { d with privXi := some x' } = some b' ∧
          (KeygenRound4Exec e r key).1 = .ok b ∧ (KeygenRound4Exec e r' key).1 = .ok b') := by
  obtain ⟨g1, ⟨h2, h3⟩ | ⟨p, x, x', hx, hc, h2, h3⟩⟩ := h
  · unfold KeygenRound4Exec
    rw [withParty_none _ h2, withParty_none _ h3]
    exact ⟨⟨g1, Or.inl ⟨h2, h3⟩⟩, Or.inl rfl⟩
  unfold KeygenRound4Exec
  rw [withParty_some _ h2, withParty_some _ h3]
  suffices hs : (r4Exec e (withShare x' p)).2 = withShare x' (r4Exec e p).2 ∧ (r4Exec e p).2.save.privXi = some x ∧
      ((r4Exec e p).1 = (r4Exec e (withShare x' p)).1 ∨ ∃ (d : SaveData) (b b' : Bytes),
        e.jsonEnc { d with privXi := some x } = some b ∧ e.jsonEnc { d with privXi := some x' } = some b' ∧
          (r4Exec e p).1 = .ok b ∧ (r4Exec e (withShare x' p)).1 = .ok b') by
    obtain ⟨a, b, c⟩ := hs
    refine ⟨⟨fun k hk => by simp only [set_other _ _ hk]; exact g1 k hk, Or.inr ⟨_, x, x', b, hc, by simp, by simp only [set_same]; rw [a]⟩⟩, ?_⟩
    rcases c with c | ⟨d, b, b', c1, c2, c3, c4⟩
    · exact Or.inl c
    · exact Or.inr ⟨d, x, x', b, b', hc, c1, c2, c3, c4⟩
  unfold r4Exec
  simp only
  have h0 : resetOK { withShare x' p with number := 4 } = withShare x' (resetOK { p with number := 4 }) := rfl
  obtain ⟨h1, h2'⟩ := loop_blind (r4Step e) (r4Step_blind e) (List.range (resetOK { p with number := 4 }).m3.length) (resetOK { p with number := 4 }) x'
  have h3' : (resetOK { p with number := 4 }).save.privXi = some x := hx
  have hl : (withShare x' (resetOK { p with number := 4 })).m3.length = (resetOK { p with number := 4 }).m3.length := rfl
  rw [h0, hl, h1]
  rw [h3'] at h2'
  generalize forJ (r4Step e) (List.range (resetOK { p with number := 4 }).m3.length) (resetOK { p with number := 4 }) = w at h2' ⊢
  rcases w with ⟨o, q⟩
  change q.save.privXi = some x at h2'
  cases o with
  | err _ => exact ⟨rfl, h2', Or.inl rfl⟩
  | panic => exact ⟨rfl, h2', Or.inl rfl⟩
  | ok _ =>
    simp only
    have q1 : (withShare x' q).save.pubXj = q.save.pubXj := rfl
    rw [q1]
    cases hpx : q.save.pubXj with
    | nil => exact ⟨rfl, h2', Or.inl rfl⟩
    | cons o t =>
      cases o with
      | none => exact ⟨rfl, h2', Or.inl rfl⟩
      | some X0 =>
        simp only
        cases sumPub e.c 1 X0 t with
        | err _ => exact ⟨rfl, h2', Or.inl rfl⟩
        | panic => exact ⟨rfl, h2', Or.inl rfl⟩
        | ok s =>
          simp only
          have e1 : ∀ y : Int, e.jsonEnc { q.save with
              privXi := some y
              pubXj := some X0 :: t
              eddsaPub := some s } ≠ none := fun y => hj _
          have e2 : ({ q.save with
              pubXj := some X0 :: t
              eddsaPub := some s } : SaveData) = { q.save with
              privXi := some x
              pubXj := some X0 :: t
              eddsaPub := some s } := by rw [← h2']
          simp only [withShare]
          rw [e2]
          cases hb : e.jsonEnc { q.save with
              privXi := some x
              pubXj := some X0 :: t
              eddsaPub := some s } with
          | none => exact absurd hb (e1 x)
          | some b =>
            cases hb' : e.jsonEnc { q.save with
              privXi := some x'
              pubXj := some X0 :: t
              eddsaPub := some s } with
            | none => exact absurd hb' (e1 x')
            | some b' => exact ⟨rfl, rfl, Or.inr ⟨{ q.save with
              pubXj := some X0 :: t
              eddsaPub := some s }, b, b', hb, hb', rfl, rfl⟩⟩

/-- C113. Creating the party with another root key of the same residue: the same answer, and a party that differs in the representative only. -/
theorem C113_new {e : Env} (key : Bytes) (r r' : Reg) (h : SameResidue e.c.N key r r') (i n : Int) (ids : List Bytes) (root root' b b' : Bytes)
    (hb : hexDecode root = some b) (hb' : hexDecode root' = some b') (hc : (beNat b : Int) ≡ beNat b' [ZMOD e.c.N]) :
    (NewLocalParty r key i n ids root).1 = (NewLocalParty r' key i n ids root').1 ∧
      SameResidue e.c.N key (NewLocalParty r key i n ids root).2 (NewLocalParty r' key i n ids root').2 := by
  unfold NewLocalParty
  by_cases h1 : n < 0
  · simp only [if_pos h1]; exact ⟨trivial, h⟩
  simp only [if_neg h1]
  cases buildIds ids 0 n.toNat with
  | none => exact ⟨rfl, h⟩
  | some u =>
    simp only [hb, hb']
    by_cases h2 : 0 ≤ i ∧ i < (PartyID.SortPartyIDs u none).length
    · simp only [if_pos h2]
      exact ⟨trivial, fun k hk => by simp only [set_other _ _ hk]; exact h.1 k hk, Or.inr ⟨freshParty n.toNat i.toNat (PartyID.SortPartyIDs u none) (beNat b),
        beNat b, beNat b', rfl, hc, by simp, by simp only [set_same]; rfl⟩⟩
    · simp only [if_neg h2]; exact ⟨trivial, h⟩

/-- C113. Whatever is called, in whatever order and with whatever draws: if in a history the root key given to the party named `key` is replaced by
another of the same residue modulo the group order, every answer stays the same - the messages of all rounds included - except the save data
returned by this party's round 4 (see `C113_round4`). -/
theorem C113_history {e : Env} {G : Type} [AddCommGroup G] (L : Lawful e.c G) (key root' b' : Bytes) (hb' : hexDecode root' = some b') :
    ∀ (ops : List Op) (r r' : Reg), SameResidue e.c.N key r r' →
      (∀ op ∈ ops, notRound4 key op) →
      (∀ i n ids root, Op.new key i n ids root ∈ ops → ∃ b, hexDecode root = some b ∧ (beNat b : Int) ≡ beNat b' [ZMOD e.c.N]) →
      answers e ops r = answers e (ops.map (withRoot key root')) r' ∧
        SameResidue e.c.N key (after e ops r) (after e (ops.map (withRoot key root')) r')
  | [], r, r', h, _, _ => ⟨rfl, h⟩
  | op :: t, r, r', h, ho, hn => by
    have step : (op.run e r).1 = ((withRoot key root' op).run e r').1 ∧
        SameResidue e.c.N key (op.run e r).2 ((withRoot key root' op).run e r').2 := by
      have same : withRoot key root' op = op → (op.run e r).1 = ((withRoot key root' op).run e r').1 ∧
          SameResidue e.c.N key (op.run e r).2 ((withRoot key root' op).run e r').2 := by
        intro hq
        rw [hq]
        exact C113_call L key r r' h op (ho op (by simp))
      cases op with
      | new k i n ids root =>
        by_cases hk : k = key
        · subst hk
          obtain ⟨b, hb, hc⟩ := hn i n ids root (by simp)
          have := C113_new k r r' h i n ids root root' b b' hb hb' hc
          simp only [withRoot, if_pos, Op.run]
          exact ⟨by rw [this.1], this.2⟩
        · exact same (by simp only [withRoot, if_neg hk])
      | _ => exact same rfl
    obtain ⟨h3, h4⟩ := C113_history L key root' b' hb' t _ _ step.2 (fun o hm => ho o (by simp [hm]))
      fun i n ids root hm => hn i n ids root (by simp [hm])
    refine ⟨?_, h4⟩
    unfold answers
    rw [List.map_cons]
    simp only
    rw [step.1, h3]

end Tss.Keygen

namespace Tss.Onsign
open Tss Text Wire

theorem child_congr (E : Ckd.Env) (i : Nat) (pk : Ckd.KeyD) (b b' : Bytes) (hc : (beNat b : Int) ≡ beNat b' [ZMOD E.curve.N]) :
    Ckd.deriveChildKeyD E i false { pk with priv := b } = Ckd.deriveChildKeyD E i false { pk with priv := b' } := by
  unfold Ckd.deriveChildKeyD
  have h : ∀ il : Int, (il + (beNat b : Int)) % E.curve.N = (il + (beNat b' : Int)) % E.curve.N := fun il => hc.add_left il
  simp only [h]
  rfl

/-- Deriving the child share from two representatives of a residue. -/
theorem derive_congr (E : Ckd.Env) {x x' : Int} (hx : 0 ≤ x ∧ x < 2 ^ 256) (hx' : 0 ≤ x' ∧ x' < 2 ^ 256) (hc : x ≡ x' [ZMOD E.curve.N])
    (pub deduce : ECPoint) (code path : Bytes) (hn : Ckd.spec.NonHardened path) :
    Ckd.deriveEddsaChildPrivKey E x pub deduce code path = Ckd.deriveEddsaChildPrivKey E x' pub deduce code path := by
  have fb : ∀ y : Int, 0 ≤ y ∧ y < 2 ^ 256 → fillBytes 32 y = some (beFixed 32 y.natAbs) ∧ (beNat (beFixed 32 y.natAbs) : Int) = y := by
    intro y hy
    constructor
    · unfold fillBytes; rw [if_pos (by norm_num; omega)]
    · rw [beNat_beFixed, Nat.mod_eq_of_lt (by norm_num; omega)]; omega
  obtain ⟨a1, a2⟩ := fb x hx
  obtain ⟨b1, b2⟩ := fb x' hx'
  unfold Ckd.deriveEddsaChildPrivKey
  rw [a1, b1]
  generalize beFixed 32 x.natAbs = b at a2 ⊢
  generalize beFixed 32 x'.natAbs = b' at b2 ⊢
  rw [← a2, ← b2] at hc
  simp only
  unfold Ckd.derivePrivateKeyForPathD
  have hd : (Ckd.newExtendKeyD E b pub deduce 0 0 code).depth = 0 := rfl
  have hd' : (Ckd.newExtendKeyD E b' pub deduce 0 0 code).depth = 0 := rfl
  rw [hd, hd']
  have hp : Ckd.pathParts 0 path = some (split 47 path) := by simp [Ckd.pathParts]
  rw [hp]
  simp only
  suffices hs : Ckd.derivePrivLoopD E (Ckd.newExtendKeyD E b pub deduce 0 0 code) (split 47 path) =
      Ckd.derivePrivLoopD E (Ckd.newExtendKeyD E b' pub deduce 0 0 code) (split 47 path) by rw [hs]
  cases hs : split 47 path with
  | nil => exact absurd hs (split_ne_nil 47 path)
  | cons part t =>
    unfold Ckd.derivePrivLoopD
    cases hq : Ckd.parsePart part with
    | panic => rfl
    | err _ => rfl
    | ok v =>
      obtain ⟨idx, hard⟩ := v
      have hh : hard = false := by
        have hl := hn part (by rw [hs]; simp)
        unfold Ckd.parsePart at hq
        cases hg : part.getLast? with
        | none => rw [hg] at hq; cases hq
        | some last =>
          rw [hg] at hq hl
          simp only at hq
          have h39 : ¬ last = 39 := fun h => hl (by rw [h])
          simp only [h39, decide_false, if_false] at hq
          cases ha : atoi part with
          | none => rw [ha] at hq; cases hq
          | some z =>
            rw [ha] at hq
            simp only at hq
            by_cases hz : z < 0
            · rw [if_pos hz] at hq; cases hq
            · rw [if_neg hz] at hq
              exact (Prod.mk.inj (Res.ok.inj hq)).2.symm
      subst hh
      simp only
      have := child_congr E idx (Ckd.newExtendKeyD E b pub deduce 0 0 code) b b' hc
      have e1 : ({ Ckd.newExtendKeyD E b pub deduce 0 0 code with priv := b } : Ckd.KeyD) = Ckd.newExtendKeyD E b pub deduce 0 0 code := rfl
      have e2 : ({ Ckd.newExtendKeyD E b pub deduce 0 0 code with priv := b' } : Ckd.KeyD) = Ckd.newExtendKeyD E b' pub deduce 0 0 code := rfl
      rw [e1, e2] at this
      rw [this]

/-- C113. A signing party is created alike - the same answer, and the very same party - from key data that differ in the representative of the
share only, when the path has no hardened component. -/
theorem C113_signing (e : Env) (r : Reg) (key : Bytes) (a a' : NewArgs) (b b' : Bytes) (d : Keygen.SaveData) (x x' : Int)
    (ha : a' = { a with keyData := a'.keyData }) (hb : b64Decode a.keyData = some b) (hb' : b64Decode a'.keyData = some b')
    (hd : e.jsonDec b = some { d with privXi := some x }) (hd' : e.jsonDec b' = some { d with privXi := some x' })
    (hx : 0 ≤ x ∧ x < 2 ^ 256) (hx' : 0 ≤ x' ∧ x' < 2 ^ 256) (hc : x ≡ x' [ZMOD Ed.ord]) (hn : Ckd.spec.NonHardened a.path) :
    NewLocalParty e r key a = NewLocalParty e r key a' := by
  have hp : ∀ idx n ids, prepareKeys e idx n ids a.refresh a.path { d with privXi := some x } =
      prepareKeys e idx n ids a.refresh a.path { d with privXi := some x' } := by
    intro idx n ids
    have hc' : x ≡ x' [ZMOD e.ckd.curve.N] := hc
    unfold prepareKeys
    simp only
    cases d.chainCodes[idx]? with
    | none => rfl
    | some o =>
      cases o with
      | none => rfl
      | some code =>
        cases d.pubXj[idx]? with
        | none => rfl
        | some o =>
          cases o with
          | none => rfl
          | some pub =>
            cases hg : d.eddsaPub with
            | none => rfl
            | some deduce => simp only [derive_congr e.ckd hx hx' hc' pub deduce (intBytes code) a.path hn]
  unfold NewLocalParty
  rw [ha]
  simp only [hb, hb', hd, hd', hp]

/-- C113. With a hardened component no party is created from either. -/
theorem C113_hardened (e : Env) (r : Reg) (key : Bytes) (a : NewArgs) (hn : ¬ Ckd.spec.NonHardened a.path) :
    (NewLocalParty e r key a).1 ≠ .ok () := by
  intro ho
  rcases new_cases e r key a with ⟨o, h1, h2⟩ | ⟨u, kb, d, keys, m, h1, h2, h3, h4, h5, h6, -, -⟩
  · rw [h2] at ho; exact h1 ho
  · have hf : spec.IdsFit a (PartyID.SortPartyIDs u none) := ⟨h1, u, h2, rfl, h3.1, h3.2⟩
    by_cases hl : (split 47 a.path).length = 5
    · rcases C50_hardened_crashes hf e r key kb h4 h5 hl hn with h | h <;> rw [h] at ho <;> cases ho
    · rw [(C50_bad_path hf e r key kb h4 h5 hl).1] at ho; cases ho

/-- C113. A share that does not fit in 32 bytes: no signing party is ever created from it; with everything else in order, the call crashes. -/
theorem C113_too_long (e : Env) (r : Reg) (key : Bytes) (a : NewArgs) (b : Bytes) (d : Keygen.SaveData) (x : Int)
    (hb : b64Decode a.keyData = some b) (hd : e.jsonDec b = some d) (hx : d.privXi = some x) (hl : 2 ^ 256 ≤ x) :
    (NewLocalParty e r key a).1 ≠ .ok () ∧
      ∀ ids, spec.IdsFit a ids → (split 47 a.path).length = 5 → NewLocalParty e r key a = (.panic, r) := by
  have fb : fillBytes 32 x = none := by
    unfold fillBytes
    rw [if_neg (by norm_num; omega)]
  have hp : ∀ idx n ids, (split 47 a.path).length = 5 → prepareKeys e idx n ids a.refresh a.path d = .panic := by
    intro idx n ids h5
    unfold prepareKeys
    rw [if_neg (by simpa using h5), hx]
    split
    · next code y pub deduce h1 h2 h3 h4 =>
      cases h2
      unfold Ckd.deriveEddsaChildPrivKey
      rw [fb]
    · rfl
  have hcrash : ∀ ids, spec.IdsFit a ids → (split 47 a.path).length = 5 → NewLocalParty e r key a = (.panic, r) := by
    intro ids hf h5
    rw [new_head hf, hb]
    simp only
    rw [hd]
    simp only
    rw [hp _ _ _ h5]
  refine ⟨fun ho => ?_, hcrash⟩
  rcases new_cases e r key a with ⟨o, h1, h2⟩ | ⟨u, kb, d', keys, m, h1, h2, h3, h4, h5, h6, -, -⟩
  · rw [h2] at ho; exact h1 ho
  · have hf : spec.IdsFit a (PartyID.SortPartyIDs u none) := ⟨h1, u, h2, rfl, h3.1, h3.2⟩
    by_cases h5 : (split 47 a.path).length = 5
    · rw [hcrash _ hf h5] at ho; cases ho
    · rw [(C50_bad_path hf e r key b hb hd h5).1] at ho; cases ho

/-- C113. So a root key longer than that passes key generation - every call is answered Ok, and the joint key includes it - and then the key cannot
be used: the save data it returned crash the creation of a signing party. -/
theorem C113_too_long_root {G : Type} [AddCommGroup G] (k : Keygen.Env) (L : Lawful k.c G) (S : Keygen.Session) (hg : Keygen.Good k L S)
    (s : Keygen.Net) (hr : Keygen.Run k S s) (i : Nat) (hi : i < S.n) (hlong : 2 ^ 256 ≤ S.x i) (e : Env)
    (back : ∀ d b, k.jsonEnc d = some b → (∀ p, some p ∈ d.pubXj → k.c.On p) → (∀ p, d.eddsaPub = some p → k.c.On p) →
      ∃ d', e.jsonDec b = some d' ∧ d'.privXi = d.privXi) :
    (∀ out s', Keygen.Step k S s out s' → ∃ b, out = .ok b) ∧
      (s.stage i = 5 → ∃ out, s.final i = some out ∧ ∀ r key a ids, b64Decode a.keyData = some out → spec.IdsFit a ids →
        (split 47 a.path).length = 5 → NewLocalParty e r key a = (.panic, r)) := by
  refine ⟨fun out s' hs => Keygen.C21_every_call_ok k L S hg s s' out hr hs, fun h5 => ?_⟩
  obtain ⟨p, sv, out, -, h2, h3, h7, h4, h8, h9, h6, h10⟩ := Keygen.C21_agreement k L S hg s hr i hi h5
  obtain ⟨d', g1, g2⟩ := back sv out h3
    (by
      intro q hq
      rw [h10, h8, List.mem_map] at hq
      obtain ⟨j, -, hj⟩ := hq
      rw [← Option.some.inj hj]
      exact L.on_pt _)
    (by
      intro q hq
      rw [h9, h7] at hq
      rw [← Option.some.inj hq]
      exact L.on_pt _)
  refine ⟨out, h2, fun r key a ids hb hf hl => ?_⟩
  exact (C113_too_long e r key a out d' (S.x i) hb g1 (by rw [g2, h6, h4]) hlong).2 ids hf hl

end Tss.Onsign
