import Verif.Props.OnsignHonest
import Verif.Lemmas.OnsignFixed
import Verif.Props.EC
/-
C78: a signing nonce answers one challenge.  False of the code: the third round can be repeated with the same nonce after
other messages have been accepted, and two answers reveal the private share.
-/
namespace Tss.Onsign
open Tss Text Wire RangeProofs
open _root_.Tss.Keygen (forJ)

/-! ### Specification -/
namespace spec

/-- The challenge of RFC 8032 section 5.1.6: SHA-512 of `R`, public key and message, as a scalar. -/
def challenge (sha512 : Bytes → Bytes) (R A M : Bytes) : Nat := leNat (sha512 (R ++ A ++ M)) % Ed.ord

/-- What anybody computes from two answers to two challenges: (s1 - s2) / (c1 - c2) modulo the group order. -/
noncomputable def recover (s1 s2 c1 c2 : Nat) : Nat :=
  have : Fact Ed.ord.Prime := ⟨Ed.ord_prime⟩
  (((s1 : ZMod Ed.ord) - s2) / ((c1 : ZMod Ed.ord) - c2)).val

end spec

theorem recover_eq {x k c1 c2 : Nat} (hc : c1 < Ed.ord) (hc' : c2 < Ed.ord) (h : c1 ≠ c2) :
    spec.recover ((c1 * x + k) % Ed.ord) ((c2 * x + k) % Ed.ord) c1 c2 = x % Ed.ord := by
  have : Fact Ed.ord.Prime := ⟨Ed.ord_prime⟩
  have hne : ((c1 : ZMod Ed.ord) - c2) ≠ 0 := by
    rw [sub_ne_zero, Ne, ZMod.natCast_eq_natCast_iff', Nat.mod_eq_of_lt hc, Nat.mod_eq_of_lt hc']
    exact h
  unfold spec.recover
  have : ((((c1 * x + k) % Ed.ord : Nat) : ZMod Ed.ord) - (((c2 * x + k) % Ed.ord : Nat) : ZMod Ed.ord)) /
      ((c1 : ZMod Ed.ord) - c2) = (x : ZMod Ed.ord) := by
    rw [div_eq_iff hne, ZMod.natCast_mod, ZMod.natCast_mod]
    push_cast
    ring
  simp only [this, ZMod.val_natCast]

theorem challenge_lt (sha512 : Bytes → Bytes) (R A M : Bytes) : spec.challenge sha512 R A M < Ed.ord :=
  Nat.mod_lt _ Ed.ord_prime.pos

/-! ### the nonce is kept -/

/-- `q` has the same identity, nonce and group key as `p`. -/
def SameK (p q : Party) : Prop := Same p q ∧ q.k = p.k ∧ q.keys = p.keys

theorem SameK.rfl {p : Party} : SameK p p := ⟨.rfl, .refl _, .refl _⟩

theorem SameK.trans {p q s : Party} (h : SameK p q) (g : SameK q s) : SameK p s :=
  ⟨h.1.trans g.1, g.2.1.trans h.2.1, g.2.2.trans h.2.2⟩

theorem SameK.of {p q : Party} (h1 : q.index = p.index) (h2 : q.ids = p.ids) (h3 : q.m = p.m) (h4 : q.k = p.k)
    (h5 : q.keys = p.keys) : SameK p q := ⟨⟨h1, h2, h3, by rw [h5], by rw [h5]⟩, h4, h5⟩

theorem r2Verify_sameK (e : Env) (p : Party) (j : Nat) : SameK p (r2Verify e p j).2 := by
  have hk : ∀ kc, SameK p { p with kc := kc } := fun _ => .of (.refl _) (.refl _) (.refl _) (.refl _) (.refl _)
  unfold r2Verify
  split
  · exact .rfl
  · split
    · exact .rfl
    · simp only
      split
      · exact hk _
      · split
        · exact hk _
        · split
          · split <;> exact hk _
          · exact hk _
      · exact hk _
    · exact .rfl

theorem r2Prove_sameK (e : Env) (draws : Nat → Draws) (k rho K n : Int) (Ri G : ECPoint) (p : Party) (j : Nat) :
    SameK p (r2Prove e draws k rho K n Ri G p j).2 := by
  obtain ⟨a, b, h⟩ := r2Prove_shape e draws k rho K n Ri G p j
  rw [h]
  exact .of (.refl _) (.refl _) (.refl _) (.refl _) (.refl _)

theorem forJ_sameK {ε : Type} {step : Party → Nat → Res ε Unit × Party} (h : ∀ p j, SameK p (step p j).2) (l : List Nat)
    (p : Party) : SameK p (forJ step l p).2 :=
  Keygen.forJ_inv (fun q => SameK p q) (fun s j hs => hs.trans (h s j)) l p .rfl

theorem r2Exec_sameK (e : Env) (draws : Nat → Draws) (p : Party) : SameK p (r2Exec e draws p).2 := by
  have h0 : SameK p (resetOK { p with number := 2 }) := .of (.refl _) (.refl _) (.refl _) (.refl _) (.refl _)
  unfold r2Exec
  simp only
  generalize resetOK { p with number := 2 } = q at h0 ⊢
  have h1 := h0.trans (forJ_sameK (r2Verify_sameK e) (List.range q.m11.length) q)
  have hP := fun k rho K n Ri G l s => forJ_sameK (r2Prove_sameK e draws k rho K n Ri G) l s
  generalize Ed.curve = curve
  split
  · next heq => rw [heq] at h1; exact h1
  · next heq => rw [heq] at h1; exact h1
  · next heq =>
    rw [heq] at h1
    split
    · exact h1
    · split
      · exact h1
      · split
        · exact h1.trans (hP _ _ _ _ _ _ _ _)
        · exact h1

theorem r3Exec_sameK (e : Env) (zs : Nat → Int) (p : Party) : SameK p (r3Exec e zs p).2 := by
  rcases r3Exec_shape e zs p with h1 | ⟨E, A, G, -, -, -, w, si, -, -, h1⟩ <;> rw [h1] <;>
    exact .of (.refl _) (.refl _) (.refl _) (.refl _) (.refl _)

theorem finalExec_sameK (e : Env) (p : Party) : SameK p (finalExec e p).2 := by
  obtain ⟨ok, data, h⟩ := finalExec_const e p
  rw [h]; exact .of (.refl _) (.refl _) (.refl _) (.refl _) (.refl _)

theorem r1Accept_sameK (frm : Int) (msg : Bytes) (p : Party) : SameK p (r1Accept frm msg p).2 := by
  unfold r1Accept
  split
  · exact .rfl
  · split
    · exact .rfl
    · split <;> exact .of (.refl _) (.refl _) (.refl _) (.refl _) (.refl _)
    · split <;> exact .of (.refl _) (.refl _) (.refl _) (.refl _) (.refl _)
    · exact .rfl

theorem accept_sameK (kind : Kind) (wrong : Err) (slots : Party → List Bytes) (put : Party → List Bytes → Party)
    (hput : ∀ p l, SameK p (put p l)) (frm : Int) (msg : Bytes) (p : Party) :
    SameK p (accept kind wrong slots put frm msg p).2 := by
  unfold accept
  split
  · exact .rfl
  · split
    · simp only
      split
      · exact hput _ _
      · split <;> exact hput _ _
    · exact .rfl

theorem withParty_sameK {α : Type} (nf : Err) {r : Reg} {key : Bytes} {p : Party} (f : Party → Res Err α × Party)
    (hk : r key = some p) (hf : SameK p (f p).2) : ∃ q, (withParty nf r key f).2 key = some q ∧ SameK p q := by
  rw [withParty_some nf f hk]
  exact ⟨_, set_same _ _ _, hf⟩

/-- The calls that create or remove a party or draw a nonce. -/
def Op.renews : Op → Bool
  | .new _ _ => true
  | .remove _ => true
  | .exec1 _ _ => true
  | _ => false

theorem run_sameK (e : Env) (op : Op) (r : Reg) (p : Party) (hk : r op.key = some p) (hl : op.renews = false) :
    ∃ q, (op.run e r).2 op.key = some q ∧ SameK p q := by
  cases op with
  | new key a => exact nomatch hl
  | remove key => exact nomatch hl
  | exec1 key rnd => exact nomatch hl
  | exec2 key d => exact withParty_sameK _ _ hk (r2Exec_sameK e d p)
  | exec3 key z => exact withParty_sameK _ _ hk (r3Exec_sameK e z p)
  | final key => exact withParty_sameK _ _ hk (finalExec_sameK e p)
  | get1 key t => exact withParty_sameK _ _ hk .rfl
  | get2 key t => exact withParty_sameK _ _ hk .rfl
  | fin1 key => exact withParty_sameK _ _ hk .rfl
  | fin2 key => exact withParty_sameK _ _ hk .rfl
  | fin3 key => exact withParty_sameK _ _ hk .rfl
  | acc1 key f m => exact withParty_sameK _ _ hk (r1Accept_sameK f m p)
  | acc2 key f m =>
    refine withParty_sameK _ _ hk (accept_sameK _ _ _ _ ?_ f m p)
    exact fun _ _ => .of (.refl _) (.refl _) (.refl _) (.refl _) (.refl _)
  | acc3 key f m =>
    refine withParty_sameK _ _ hk (accept_sameK _ _ _ _ ?_ f m p)
    exact fun _ _ => .of (.refl _) (.refl _) (.refl _) (.refl _) (.refl _)

theorem runOps_sameK (e : Env) (key : Bytes) : ∀ (ops : List Op) (r : Reg) (p : Party), r key = some p →
    (∀ op ∈ ops, op.key = key → op.renews = false) → ∃ q, runOps e ops r key = some q ∧ SameK p q
  | [], r, p, hk, _ => ⟨p, hk, .rfl⟩
  | op :: t, r, p, hk, h => by
    have hstep : ∃ q, (op.run e r).2 key = some q ∧ SameK p q := by
      by_cases hop : op.key = key
      · subst hop; exact run_sameK e op r p hk (h op (by simp) rfl)
      · exact ⟨p, by rw [run_other e op r key (fun h => hop h.symm)]; exact hk, .rfl⟩
    obtain ⟨q, h1, h2⟩ := hstep
    obtain ⟨s, h3, h4⟩ := runOps_sameK e key t _ q h1 (fun o ho => h o (by simp [ho]))
    exact ⟨s, h3, h2.trans h4⟩

/-! ### what the third round answers -/

theorem r3Exec_ok {e : Env} {zs : Nat → Int} {p : Party} {w : Bytes} (h : (r3Exec e zs p).1 = .ok w) :
    ∃ (E : Ed.Ext) (A G : ECPoint), ECPoint.new Ed.curve Ed.curve.Gx Ed.curve.Gy = some G ∧
      forJ (r3Step e zs G (resetOK { p with number := 3 })) (List.range p.m2.length)
        (Ed.geScalarMultBase (Ed.bigIntToEncodedBytes p.k)) = (.ok (), E) ∧ p.keys.eddsaPub = some A ∧
      (r3Exec e zs p).2.r = some (Ed.encodedBytesToBigInt E.toBytes) ∧
      w = wireBytes (.sg3 (intBytes (Ed.encodedBytesToBigInt (Ed.scMulAdd
          (Ed.scReduce (e.sha512 (E.toBytes ++ Ed.ecPointToEncodedBytes A.x A.y ++ intBytes p.m)))
          (Ed.bigIntToEncodedBytes p.keys.privXi) (Ed.bigIntToEncodedBytes p.k))))) := by
  revert h
  unfold r3Exec
  generalize ECPoint.new Ed.curve Ed.curve.Gx Ed.curve.Gy = oG
  simp only
  cases oG with
  | none => intro h; cases h
  | some G =>
    simp only
    have e1 : (resetOK { p with number := 3 }).m2.length = p.m2.length := rfl
    have e2 : (resetOK { p with number := 3 }).k = p.k := rfl
    have e3 : (resetOK { p with number := 3 }).keys = p.keys := rfl
    have e4 : (resetOK { p with number := 3 }).m = p.m := rfl
    rw [e1, e2, e3, e4]
    generalize hout : forJ (r3Step e zs G (resetOK { p with number := 3 })) (List.range p.m2.length)
      (Ed.geScalarMultBase (Ed.bigIntToEncodedBytes p.k)) = out
    rcases out with ⟨u | er | _, E⟩
    · simp only
      cases hA : p.keys.eddsaPub with
      | none => intro h; cases h
      | some A => exact fun h => ⟨E, A, G, rfl, hout, rfl, rfl, (Res.ok.inj h).symm⟩
    · intro h; cases h
    · intro h; cases h

/-- C78. What a successful third round answers: with private share `x` and nonce `k` it returns the scalar `c x + k`
modulo the group order, where `c` is the challenge for the 32-byte `R` it stores (the first half of the signature the
final call will release), the group key and the message. -/
theorem C78_answer {e : Env} {zs : Nat → Int} {r r' : Reg} {key w : Bytes} {p : Party} {x k : Int} (hk : r key = some p)
    (hx : p.keys.privXi = some x) (hx0 : 0 ≤ x ∧ x < 2 ^ 256) (hn : p.k = some k) (hn0 : 0 ≤ k ∧ k < 2 ^ 256)
    (h : OnsignRound3Exec e zs r key = (.ok w, r')) :
    ∃ (R : Bytes) (A : ECPoint) (p' : Party), R.length = 32 ∧ p.keys.eddsaPub = some A ∧ r' key = some p' ∧
      p'.r = some (leNat R : Int) ∧
      w = wireBytes (.sg3 (intBytes (((spec.challenge e.sha512 R (Ed.ecPointToEncodedBytes A.x A.y) (intBytes p.m) * x.natAbs +
        k.natAbs) % Ed.ord : Nat) : Int))) := by
  unfold OnsignRound3Exec at h
  rw [withParty_some _ _ hk, Prod.mk.injEq] at h
  obtain ⟨h1, h2⟩ := h
  obtain ⟨E, A, G, -, -, hA, hr, hw⟩ := r3Exec_ok h1
  have hl := toBytes_length E
  refine ⟨E.toBytes, A, (r3Exec e zs p).2, hl, hA, by rw [← h2, set_same], by rw [hr, (encodedBytes_range _ hl).2.2], ?_⟩
  obtain ⟨q1, -, q3⟩ := scMulAdd_spec (Ed.scReduce (e.sha512 (E.toBytes ++ Ed.ecPointToEncodedBytes A.x A.y ++ intBytes p.m)))
    (Ed.bigIntToEncodedBytes p.keys.privXi) (Ed.bigIntToEncodedBytes p.k)
  rw [hw, (encodedBytes_range _ q1).2.2, q3, hx, hn, Ed.leNat_bigIntToEncodedBytes (natAbs_lt hx0.1 hx0.2),
    Ed.leNat_bigIntToEncodedBytes (natAbs_lt hn0.1 hn0.2), Ed.leNat_scReduce]
  rfl

/-- C78. The property fails: two successful third rounds of one party, with any calls in between except its creation,
removal and first round (the only one that draws a nonce), use the same nonce. If they answered different challenges,
the two answers – which are sent to every peer – determine the party's private share. -/
theorem C78_two_answers_reveal_share {e : Env} {zs zs' : Nat → Int} {r r1 r2 : Reg} {key w1 w2 : Bytes} {p : Party} {x k : Int}
    (hk : r key = some p) (hx : p.keys.privXi = some x) (hx0 : 0 ≤ x ∧ x < Ed.ord) (hn : p.k = some k)
    (hn0 : 0 ≤ k ∧ k < 2 ^ 256) (h1 : OnsignRound3Exec e zs r key = (.ok w1, r1)) (ops : List Op)
    (hops : ∀ op ∈ ops, op.key = key → op.renews = false)
    (h2 : OnsignRound3Exec e zs' (runOps e ops r1) key = (.ok w2, r2)) :
    ∃ (R1 R2 : Bytes) (A : ECPoint) (p1 p2 : Party) (s1 s2 : Nat), p.keys.eddsaPub = some A ∧
      r1 key = some p1 ∧ p1.r = some (leNat R1 : Int) ∧ r2 key = some p2 ∧ p2.r = some (leNat R2 : Int) ∧
      R1.length = 32 ∧ R2.length = 32 ∧
      w1 = wireBytes (.sg3 (intBytes (s1 : Int))) ∧ w2 = wireBytes (.sg3 (intBytes (s2 : Int))) ∧
      (spec.challenge e.sha512 R1 (Ed.ecPointToEncodedBytes A.x A.y) (intBytes p.m) ≠
        spec.challenge e.sha512 R2 (Ed.ecPointToEncodedBytes A.x A.y) (intBytes p.m) →
        (spec.recover s1 s2 (spec.challenge e.sha512 R1 (Ed.ecPointToEncodedBytes A.x A.y) (intBytes p.m))
          (spec.challenge e.sha512 R2 (Ed.ecPointToEncodedBytes A.x A.y) (intBytes p.m)) : Int) = x) := by
  have hord : (Ed.ord : Int) < 2 ^ 256 := by decide +kernel
  obtain ⟨R1, A, p1, l1, a1, b1, c1, d1⟩ := C78_answer hk hx ⟨hx0.1, lt_trans hx0.2 hord⟩ hn hn0 h1
  have hs1 : SameK p p1 := by
    obtain ⟨q, q1, q2⟩ := withParty_sameK (.partyNotFound key) (r3Exec e zs) hk (r3Exec_sameK e zs p)
    have : r1 = (withParty (.partyNotFound key) r key (r3Exec e zs)).2 := by
      have h3 : withParty (.partyNotFound key) r key (r3Exec e zs) = (.ok w1, r1) := h1
      rw [h3]
    rw [← this, b1] at q1
    cases q1
    exact q2
  obtain ⟨q, q1, q2⟩ := runOps_sameK e key ops r1 p1 b1 hops
  obtain ⟨⟨-, -, m1, x1, -⟩, k1, e1⟩ := hs1.trans q2
  obtain ⟨R2, A2, p2, l2, a2, b2, c2, d2⟩ := C78_answer (x := x) (k := k) q1 (x1.trans hx) ⟨hx0.1, lt_trans hx0.2 hord⟩
    (k1.trans hn) hn0 h2
  rw [e1, a1] at a2
  cases a2
  rw [m1] at d2
  refine ⟨R1, R2, A, p1, p2, _, _, a1, b1, c1, b2, c2, l1, l2, d1, d2, fun hne => ?_⟩
  rw [recover_eq (challenge_lt _ _ _ _) (challenge_lt _ _ _ _) hne, Nat.mod_eq_of_lt]
  · rw [Int.natCast_natAbs, abs_of_nonneg hx0.1]
  · have : ((x.natAbs : Nat) : Int) < Ed.ord := by rw [Int.natCast_natAbs, abs_of_nonneg hx0.1]; exact hx0.2
    exact_mod_cast this

/-! ### the second answer can be had -/

variable {e : Env} {S : Session}

/-- the same parties, other draws -/
def Session.redraw (S : Session) (rnd : Nat → Rand1) (draws : Nat → Nat → Draws) (zs : Nat → Nat → Int) : Session :=
  { S with rnd := rnd, draws := draws, zs := zs }

variable {rnd' : Nat → Rand1} {draws' : Nat → Nat → Draws} {zs' : Nat → Nat → Int}

theorem facts_agree (F : Facts e S) (F' : Facts e (S.redraw rnd' draws' zs')) (i : Nat) (hi : i < S.n) :
    F'.ids = F.ids ∧ F'.m = F.m ∧ F'.keys i = F.keys i ∧ F'.x i = F.x i ∧ F'.N i = F.N i ∧ F'.ped i = F.ped i := by
  have h := F.create i hi (fun _ => none)
  have h' : NewLocalParty e (fun _ => none) (S.key i) (S.args i) = _ := F'.create i hi (fun _ => none)
  rw [h, Prod.mk.injEq] at h'
  have h2 := congrFun h'.2 (S.key i)
  rw [set_same, show (S.redraw rnd' draws' zs').key i = S.key i from rfl, set_same, Option.some.injEq] at h2
  have hk : F'.keys i = F.keys i := (congrArg Party.keys h2).symm
  have hm : F'.mOf i = F.mOf i := (congrArg Party.m h2).symm
  rw [F'.mOf_eq hi, F.mOf_eq hi] at hm
  refine ⟨(congrArg Party.ids h2).symm, hm, hk, ?_, ?_, ?_⟩
  · have a := F.priv i hi
    have b := F'.priv i hi
    rw [hk, a] at b
    exact (Option.some.inj b).symm
  · have a := F.paillier i i hi hi
    have b := F'.paillier i i hi hi
    rw [hk, a] at b
    exact (Option.some.inj b).symm
  · have a := F.peds i i hi hi
    have b := F'.peds i i hi hi
    rw [hk, a] at b
    exact (Option.some.inj b).symm

/-- A party that has run its first round is, for the same nonce, in the state after the first round of the other
session. -/
theorem PI.redraw {F : Facts e S} {F' : Facts e (S.redraw rnd' draws' zs')} {i k : Nat} {got : Mk → Nat → Bool} {p : Party}
    (h : PI F.toGFacts i k got p) (h2 : 2 ≤ k) (hi : i < S.n) (hr : rnd' i = S.rnd i) : PI F'.toGFacts i 2 (fun _ _ => false) p := by
  obtain ⟨a1, a2, a3, -, a5, -⟩ := facts_agree F F' i hi
  have hA : F'.A = F.A := by
    rw [F'.A_eq, F.A_eq]
    congr 2
    exact List.map_congr_left fun j hj => (facts_agree F F' j (List.mem_range.mp hj)).2.2.2.1
  have hK : F'.K i = F.K i := by
    have c := F.cipher i hi
    have c' := F'.cipher i hi
    rw [a5, show ((S.redraw rnd' draws' zs').rnd i) = S.rnd i from hr, c] at c'
    exact (Option.some.inj c').symm
  have hE : ∀ j, j < S.n → F'.enc i j = F.enc i j := by
    intro j hj
    have c := F.encNew i j hi hj
    have c' := F'.encNew i j hi hj
    rw [a5, hK, (facts_agree F F' j hj).2.2.2.2.2, show ((S.redraw rnd' draws' zs').rnd i) = S.rnd i from hr, c] at c'
    exact (Res.ok.inj c').symm
  obtain ⟨s1, s2, s3, s4, s5⟩ := h.s1 h2
  have hr' : (S.redraw rnd' draws' zs').rnd i = S.rnd i := hr
  constructor
  · exact h.index
  · rw [a1]; exact h.ids
  · rw [F'.mOf_eq hi, a2]; exact h.m_eq hi
  · rw [a3]; exact h.keys
  · exact h.lm
  · exact h.ls1
  · exact h.ls2
  · exact h.lkc
  · intro _
    rw [hr', hK, F'.AOf_eq hi, hA, ← F.AOf_eq hi]
    exact ⟨s1, s2, s3, s4, s5⟩
  · intro _ j hj
    have := h.send1 h2 j hj
    simp only [GFacts.cont] at this ⊢
    rw [hE j hj]; exact this
  · intro hk; omega
  · intro hk; omega
  · intro hk; omega
  · intro mk hk
    cases mk
    · have := h.own .a (by simpa [Mk.stage] using h2)
      simp only [GFacts.cont] at this ⊢
      rw [hK]; exact this
    · have := h.own .b (by simpa [Mk.stage] using h2)
      simp only [GFacts.cont] at this ⊢
      rw [hE i hi]; exact this
    · simp [Mk.stage] at hk
    · simp [Mk.stage] at hk
  · intro mk j hj; cases hj

/-- the accept call of a message type as an operation -/
def Mk.op : Mk → Bytes → Int → Bytes → Op
  | .a => .acc1
  | .b => .acc1
  | .two => .acc2
  | .three => .acc3

theorem Mk.op_run (mk : Mk) (key : Bytes) (f : Int) (m : Bytes) (r : Reg) : ((mk.op key f m).run e r).2 = (mk.accept r key f m).2 := by
  cases mk <;> rfl

theorem Mk.op_key (mk : Mk) (key : Bytes) (f : Int) (m : Bytes) : (mk.op key f m).key = key := by cases mk <;> rfl

theorem runOps_append : ∀ (a b : List Op) (r : Reg), runOps e (a ++ b) r = runOps e b (runOps e a r)
  | [], _, _ => rfl
  | _ :: t, b, _ => runOps_append t b _

/-- hand the honest messages of the parties in `l` to party `i` -/
theorem deliver_all {F : Facts e S} {i k : Nat} (mk : Mk) (hi : i < S.n) : ∀ (l : List Nat) (r : Reg) (p : Party)
    (got : Mk → Nat → Bool), (∀ j ∈ l, j < S.n) → r (S.key i) = some p → PI F.toGFacts i k got p →
    ∃ p', runOps e (l.map fun (j : Nat) => mk.op (S.key i) (j : Int) (b64Encode (wireBytes (F.cont mk j i)))) r (S.key i) = some p' ∧
      PI F.toGFacts i k (fun mk' j => got mk' j || (decide (mk' = mk) && decide (j ∈ l))) p'
  | [], r, p, got, _, hp, h => ⟨p, hp, h.got_congr (by intro mk' j; simp)⟩
  | j :: t, r, p, got, hl, hp, h => by
    have hj := hl j (by simp)
    have h1 := accept_honest h mk r hi hj hp
    have h2 := h.store (j := j) (got' := fun mk' j' => got mk' j' || (decide (mk' = mk) && decide (j' = j))) mk
      (by intro mk' j' hh; simpa using hh) hj
    obtain ⟨p', g1, g2⟩ := deliver_all mk hi t (r.set (S.key i) (some (mk.put p ((mk.slots p).set j (wireBytes (F.cont mk j i)))))) _ _
      (fun a ha => hl a (by simp [ha])) (set_same _ _ _) h2
    refine ⟨p', ?_, g2.got_congr ?_⟩
    · rw [List.map_cons]
      show runOps e _ ((mk.op _ _ _).run e r).2 _ = _
      rw [Mk.op_run, h1]
      exact g1
    · intro mk' j'
      simp only [List.mem_cons]
      by_cases c1 : mk' = mk <;> by_cases c2 : j' = j <;> simp [c1, c2]

/-- The calls of the second attempt: accept round-1 messages, run round 2 again, accept round-2 messages. -/
def Op.isRetry : Op → Bool
  | .acc1 _ _ _ => true
  | .exec2 _ _ => true
  | .acc2 _ _ _ => true
  | _ => false

/-- the calls that lead party `i` from its first answer to the second one -/
noncomputable def retryOps (F : Facts e S) (i : Nat) : List Op :=
  ((List.range S.n).map fun (j : Nat) => Mk.a.op (S.key i) (j : Int) (b64Encode (wireBytes (F.cont .a j i)))) ++
  ((List.range S.n).map fun (j : Nat) => Mk.b.op (S.key i) (j : Int) (b64Encode (wireBytes (F.cont .b j i)))) ++
  ([Op.exec2 (S.key i) (S.draws i)] ++
  ((List.range S.n).map fun (j : Nat) => Mk.two.op (S.key i) (j : Int) (b64Encode (wireBytes (F.cont .two j i)))))

theorem retry_reaches {F : Facts e S} {i : Nat} {r : Reg} {p : Party} (hi : i < S.n) (hp : r (S.key i) = some p)
    (h : PI F.toGFacts i 2 (fun _ _ => false) p) : ∃ r', OnsignRound3Exec e (S.zs i) (runOps e (retryOps F i) r) (S.key i) =
      (.ok (wireBytes (.sg3 (intBytes (F.sg i)))), r') := by
  unfold retryOps
  rw [runOps_append, runOps_append, runOps_append]
  obtain ⟨p1, a1, b1⟩ := deliver_all (F := F) .a hi (List.range S.n) r p _ (fun j hj => List.mem_range.mp hj) hp h
  obtain ⟨p2, a2, b2⟩ := deliver_all (F := F) .b hi (List.range S.n) _ p1 _ (fun j hj => List.mem_range.mp hj) a1 b1
  generalize runOps e ((List.range S.n).map fun (j : Nat) => Mk.b.op (S.key i) (j : Int) (b64Encode (wireBytes (F.cont .b j i)))) _ = r2 at a2 ⊢
  obtain ⟨p3, a3, b3⟩ := b2.exec2 hi (by intro j hj _; simp [hj]) (by intro j hj _; simp [hj])
  have a3' : runOps e [Op.exec2 (S.key i) (S.draws i)] r2 = r2.set (S.key i) (some p3) := by
    show (OnsignRound2Exec e (S.draws i) r2 (S.key i)).2 = _
    unfold OnsignRound2Exec
    rw [withParty_some _ _ a2, a3]
  rw [a3']
  obtain ⟨p4, a4, b4⟩ := deliver_all (F := F) .two hi (List.range S.n) _ p3 _ (fun j hj => List.mem_range.mp hj) (set_same _ _ _) b3
  obtain ⟨p5, a5, -⟩ := b4.exec3 hi (by intro j hj _; simp [hj])
  generalize runOps e _ (r2.set (S.key i) (some p3)) = r4 at a4 ⊢
  refine ⟨r4.set (S.key i) (some p5), ?_⟩
  unfold OnsignRound3Exec
  rw [withParty_some _ _ a4, a5]
  rfl

theorem retry_ops (F : Facts e S) (i : Nat) : ∀ op ∈ retryOps F i, op.key = S.key i ∧ op.isRetry = true := by
  intro op hop
  unfold retryOps at hop
  simp only [List.mem_append, List.mem_map, List.mem_singleton] at hop
  rcases hop with (⟨j, -, rfl⟩ | ⟨j, -, rfl⟩) | (rfl | ⟨j, -, rfl⟩) <;> exact ⟨rfl, rfl⟩

/-- C78. And the second answer can be had: party `i` has answered in an honest session (its answer was sent to every
peer). Its peers – or whoever delivers its messages – replay the session with other nonces of the other parties: a few
accept calls and one more second round later, the third round answers again, with the same nonce. -/
theorem C78_second_answer (H : Honest e S) (H' : Honest e (S.redraw rnd' draws' zs')) (i : Nat) (hi : i < S.n)
    (hrnd : rnd' i = S.rnd i) (s : Net) (hr : Run e S s) (h4 : 4 ≤ s.stage i) :
    ∃ (R1 R2 A : Ed.Point) (M : Bytes) (x : Nat) (ops : List Op) (r' : Reg),
      R1 = ((List.range S.n).map fun j => (S.rnd j).k).sum • Ed.B ∧
      R2 = ((List.range S.n).map fun j => (rnd' j).k).sum • Ed.B ∧
      A = ((List.range S.n).map fun j => (beNat (H.child j) : Int)).sum • Ed.B ∧ M = H.msg.dropWhile (· = 0) ∧
      x = beNat (H.child i) ∧ x < Ed.ord ∧
      (∀ op ∈ ops, op.key = S.key i ∧ op.isRetry = true) ∧
      (∀ j, j < S.n → s.sent .three i j = some (wireBytes (.sg3 (intBytes
        (((spec.challenge e.sha512 (Ed.encode R1) (Ed.encode A) M * x + (S.rnd i).k.natAbs) % Ed.ord : Nat) : Int))))) ∧
      OnsignRound3Exec e (zs' i) (runOps e ops s.reg) (S.key i) = (.ok (wireBytes (.sg3 (intBytes
        (((spec.challenge e.sha512 (Ed.encode R2) (Ed.encode A) M * x + (S.rnd i).k.natAbs) % Ed.ord : Nat) : Int)))), r') := by
  obtain ⟨F, f1, f2, f3, f4⟩ := H.facts
  obtain ⟨F', -⟩ := H'.facts
  have hs := run_inv F.toGFacts hr
  obtain ⟨p, hp, hpi⟩ := hs.stage_ne hi (by omega)
  have hm : intBytes F.m = H.msg.dropWhile (· = 0) := by rw [f3, C56_signed_bytes]
  have hA : F.A = ((List.range S.n).map fun j => (beNat (H.child j) : Int)).sum • Ed.B := by
    rw [F.A_eq, f4]; rfl
  have hA' : F'.A = F.A := by
    rw [F'.A_eq, F.A_eq]
    congr 2
    exact List.map_congr_left fun j hj => (facts_agree F F' j (List.mem_range.mp hj)).2.2.2.1
  obtain ⟨-, m', -, x', -⟩ := facts_agree F F' i hi
  have hx : (F.x i).natAbs = beNat (H.child i) := by rw [f4]; rfl
  have hlt : beNat (H.child i) < Ed.ord := by
    have := H.x_lt i hi
    have h2 : (beNat (H.child i) : Int) < (Ed.ord : Int) := this
    exact_mod_cast h2
  obtain ⟨r', hr3⟩ := retry_reaches (F := F') (i := i) (r := s.reg) (p := p) hi hp (hpi.redraw (by omega) hi hrnd)
  refine ⟨F.Rtot, F'.Rtot, F.A, intBytes F.m, (F.x i).natAbs, retryOps F' i, r', rfl, rfl, hA, hm, hx, by rw [hx]; exact hlt,
    fun op hop => retry_ops F' i op hop, ?_, ?_⟩
  · intro j hj
    obtain ⟨w, hw⟩ := Option.isSome_iff_exists.mp (hs.sentC i j hi hj h4)
    rw [hw, hs.sent .three i j w hi hj hw]
    show some (wireBytes (.sg3 (intBytes (F.sg i)))) = _
    rw [F.sg_eq hi, F.lam_eq]
    rfl
  · have e1 : F'.sg i = (spec.challenge e.sha512 (Ed.encode F'.Rtot) (Ed.encode F.A) (intBytes F.m) * (F.x i).natAbs +
        (S.rnd i).k.natAbs) % Ed.ord := by
      rw [F'.sg_eq hi, F'.lam_eq]
      rw [x', m', hA', show (S.redraw rnd' draws' zs').rnd i = S.rnd i from hrnd]
      rfl
    rw [← e1]
    exact hr3

/-- C78. Together: the party's private share (the derived share it signs with) is computed from what it sent. -/
theorem C78_share_recovered (H : Honest e S) (H' : Honest e (S.redraw rnd' draws' zs')) (i : Nat) (hi : i < S.n)
    (hrnd : rnd' i = S.rnd i) (s : Net) (hr : Run e S s) (h4 : 4 ≤ s.stage i) {A : Ed.Point} {M : Bytes} {c1 c2 : Nat}
    (hA : A = ((List.range S.n).map fun j => (beNat (H.child j) : Int)).sum • Ed.B) (hM : M = H.msg.dropWhile (· = 0))
    (hc1 : c1 = spec.challenge e.sha512 (Ed.encode (((List.range S.n).map fun j => (S.rnd j).k).sum • Ed.B)) (Ed.encode A) M)
    (hc2 : c2 = spec.challenge e.sha512 (Ed.encode (((List.range S.n).map fun j => (rnd' j).k).sum • Ed.B)) (Ed.encode A) M)
    (hne : c1 ≠ c2) :
    ∃ (s1 s2 : Nat) (ops : List Op) (r' : Reg), (∀ op ∈ ops, op.key = S.key i ∧ op.isRetry = true) ∧
      (∀ j, j < S.n → s.sent .three i j = some (wireBytes (.sg3 (intBytes (s1 : Int))))) ∧
      OnsignRound3Exec e (zs' i) (runOps e ops s.reg) (S.key i) = (.ok (wireBytes (.sg3 (intBytes (s2 : Int)))), r') ∧
      spec.recover s1 s2 c1 c2 = beNat (H.child i) := by
  obtain ⟨R1, R2, A', M', x, ops, r', q1, q2, q3, q4, q5, q6, q7, q8, q9⟩ := C78_second_answer H H' i hi hrnd s hr h4
  rw [← hA] at q3
  rw [← hM] at q4
  subst q3 q4
  rw [← q1] at hc1
  rw [← q2] at hc2
  refine ⟨_, _, ops, r', q7, q8, q9, ?_⟩
  rw [← hc1, ← hc2, recover_eq (hc1 ▸ challenge_lt _ _ _ _) (hc2 ▸ challenge_lt _ _ _ _) hne, Nat.mod_eq_of_lt q6, q5]

/-! ### what `R` is, and that the same messages give the same answer -/

/-- The nonce point in a stored round-2 message. -/
noncomputable def spec.noncePoint (msg : Bytes) : Ed.Point :=
  match parseWireMsg msg with
  | some (.sg2 rx ry _) => Ed.toPt (beNat rx) (beNat ry)
  | _ => 0

theorem r3Loop_point {e : Env} {zs : Nat → Int} {G : ECPoint} {p : Party} {inv : Int}
    (hinv : ∀ R, Ed.curve.On R → ECPoint.eightInvEight Ed.curve R = .ok (some (Ed.lawful.pt (inv • ((8 : Int) • Ed.lawful.val R))))) :
    ∀ (l : List Nat) (E E' : Ed.Ext) (g : Ed.Point), (∀ j ∈ l, Ed.fe (zs j) % Ed.P ≠ 0) → Ed.Rep E g →
      forJ (r3Step e zs G p) l E = (.ok (), E') →
      Ed.Rep E' (g + (l.map fun j => if j = p.index then 0 else inv • ((8 : Int) • spec.noncePoint (p.m2.getD j []))).sum) := by
  intro l
  induction l with
  | nil =>
    intro E E' g _ hE h
    rw [Keygen.forJ_nil, Prod.mk.injEq] at h
    rw [← h.2]; simpa using hE
  | cons j t ih =>
    intro E E' g hz hE h
    obtain ⟨E1, h1, h2⟩ := Keygen.forJ_cons_ok.mp h
    rw [List.map_cons, List.sum_cons, ← add_assoc]
    refine ih E1 E' _ (fun a ha => hz a (by simp [ha])) ?_ h2
    rcases (r3Step_ok_iff _ _ _ _ _ _ _).mp h1 with ⟨a, rfl⟩ | ⟨a, R, R8, b, c, rfl⟩
    · rw [if_pos a, add_zero]; exact hE
    · rw [if_neg a]
      obtain ⟨rx, ry, lp, m, K, n, ped, b1, -, b3, -⟩ := b
      obtain ⟨hon', rfl⟩ := ((ECPoint.C23_new_iff Ed.curve _ _).1 R).mp b3
      have hon : Ed.curve.On ⟨(beNat rx : Int), (beNat ry : Int)⟩ := hon'
      rw [hinv _ hon, Res.ok.injEq, Option.some.injEq] at c
      have hq : spec.noncePoint (p.m2.getD j []) = Ed.lawful.val ⟨(beNat rx : Int), (beNat ry : Int)⟩ := by
        unfold spec.noncePoint
        rw [b1]
        rfl
      generalize (⟨(beNat rx : Int), (beNat ry : Int)⟩ : ECPoint) = R at hon hinv c hq ⊢
      rw [hq, ← c]
      refine Ed.rep_add hE ?_
      generalize inv • ((8 : Int) • Ed.lawful.val R) = g8
      have h1 := rep_extended (x := (Ed.lawful.pt g8).x) (y := (Ed.lawful.pt g8).y) (Ed.lawful.on_pt _) (hz j (by simp))
      have h2 : Ed.toPt (Ed.lawful.pt g8).x (Ed.lawful.pt g8).y = g8 := Ed.lawful.val_pt _
      rw [h2] at h1
      exact h1

/-- C78. The `R` of a third round is the encoding of the own nonce point plus the nonce points in the stored round-2
messages, each freed of its small-order part (multiplied by 8 and by the inverse of 8 modulo the group order). -/
theorem C78_R_is_sum : ∃ inv : Int, 8 * inv ≡ 1 [ZMOD Ed.ord] ∧ ∀ {e : Env} {zs : Nat → Int} {r r' : Reg} {key w : Bytes}
    {p : Party} {k : Int} (_ : r key = some p) (_ : p.k = some k) (_ : 0 ≤ k ∧ k < 2 ^ 256)
    (_ : ∀ j, Ed.fe (zs j) % Ed.P ≠ 0) (_ : OnsignRound3Exec e zs r key = (.ok w, r')),
    ∃ p', r' key = some p' ∧ p'.r = some (leNat (Ed.encode (k • Ed.B + ((List.range p.m2.length).map fun j =>
      if j = p.index then 0 else inv • ((8 : Int) • spec.noncePoint (p.m2.getD j []))).sum)) : Int) := by
  obtain ⟨inv, h1, i0, i1, -⟩ := Ed.lawful.eightInvEight_pt (Ed.lawful.on_pt 0) (by decide +kernel)
  have hall : ∀ R, Ed.curve.On R → ECPoint.eightInvEight Ed.curve R = .ok (some (Ed.lawful.pt (inv • ((8 : Int) • Ed.lawful.val R)))) := by
    intro R hR
    obtain ⟨inv', g1, g2, g3, g4⟩ := Ed.lawful.eightInvEight_pt hR (by decide +kernel)
    have hc : inv ≡ inv' [ZMOD Ed.curve.N] := by
      have h8 : 8 * inv ≡ 8 * inv' [ZMOD Ed.curve.N] := h1.trans g1.symm
      have hd := (Int.modEq_iff_dvd.mp h8)
      rw [← mul_sub] at hd
      exact Int.modEq_iff_dvd.mpr (IsCoprime.dvd_of_dvd_mul_left
        (Int.isCoprime_iff_gcd_eq_one.mpr (by decide +kernel)) hd)
    have he : inv = inv' := by
      have := hc.eq
      rwa [Int.emod_eq_of_lt i0 i1, Int.emod_eq_of_lt g2 g3] at this
    rw [g4, he, show (8 : Int) % Ed.curve.N = 8 by decide +kernel]
  refine ⟨inv, h1, ?_⟩
  intro e zs r r' key w p k hk hn hn0 hz h
  unfold OnsignRound3Exec at h
  rw [withParty_some _ _ hk, Prod.mk.injEq] at h
  obtain ⟨h2, h3⟩ := h
  obtain ⟨E, A, G, -, hl, -, hr, -⟩ := r3Exec_ok h2
  have hbase : Ed.Rep (Ed.geScalarMultBase (Ed.bigIntToEncodedBytes p.k)) (k • Ed.B) := by
    unfold Ed.geScalarMultBase
    rw [hn, Ed.leNat_bigIntToEncodedBytes (natAbs_lt hn0.1 hn0.2)]
    have := Ed.rep_smul k.natAbs Ed.rep_base
    rwa [natAbs_smul hn0.1] at this
  have := r3Loop_point hall _ _ _ _ (fun j _ => hz j) hbase hl
  refine ⟨_, by rw [← h3, set_same], ?_⟩
  rw [hr, (encodedBytes_range _ (toBytes_length E)).2.2, Ed.rep_toBytes this]
  rfl

/-- `q` also holds the same round-2 messages. -/
def SameR (p q : Party) : Prop := SameK p q ∧ q.m2 = p.m2

/-- The calls that create or remove a party, draw a nonce, or change the stored round-2 messages. -/
def Op.changes2 : Op → Bool
  | .new _ _ => true
  | .remove _ => true
  | .exec1 _ _ => true
  | .exec2 _ _ => true
  | .acc2 _ _ _ => true
  | _ => false

theorem r3Exec_m2 (e : Env) (zs : Nat → Int) (p : Party) : (r3Exec e zs p).2.m2 = p.m2 := by
  rcases r3Exec_shape e zs p with h1 | ⟨E, A, G, -, -, -, w, si, -, -, h1⟩ <;> rw [h1] <;> rfl

theorem run_m2 (e : Env) (op : Op) (r : Reg) (p q : Party) (hk : r op.key = some p) (hl : op.changes2 = false)
    (hq : (op.run e r).2 op.key = some q) : q.m2 = p.m2 := by
  have wp : ∀ {α : Type} (nf : Err) (f : Party → Res Err α × Party), (withParty nf r op.key f).2 op.key = some q →
      (f p).2.m2 = p.m2 → q.m2 = p.m2 := by
    intro α nf f h1 h2
    rw [withParty_some nf f hk] at h1
    simp only [set_same, Option.some.injEq] at h1
    rw [← h1]; exact h2
  cases op with
  | new key a => exact nomatch hl
  | remove key => exact nomatch hl
  | exec1 key rnd => exact nomatch hl
  | exec2 key d => exact nomatch hl
  | acc2 key f m => exact nomatch hl
  | exec3 key z => exact wp _ _ hq (r3Exec_m2 e z p)
  | final key =>
    refine wp _ _ hq ?_
    obtain ⟨ok, data, h⟩ := finalExec_const e p
    rw [h]
  | get1 key t => exact wp _ _ hq rfl
  | get2 key t => exact wp _ _ hq rfl
  | fin1 key => exact wp _ _ hq rfl
  | fin2 key => exact wp _ _ hq rfl
  | fin3 key => exact wp _ _ hq rfl
  | acc1 key f m =>
    refine wp _ _ hq ?_
    unfold r1Accept
    split
    · rfl
    · split
      · rfl
      · split <;> rfl
      · split <;> rfl
      · rfl
  | acc3 key f m =>
    refine wp _ _ hq ?_
    unfold accept
    split
    · rfl
    · split
      · simp only
        split
        · rfl
        · split <;> rfl
      · rfl

theorem runOps_sameR (e : Env) (key : Bytes) : ∀ (ops : List Op) (r : Reg) (p : Party), r key = some p →
    (∀ op ∈ ops, op.key = key → op.changes2 = false) → ∃ q, runOps e ops r key = some q ∧ SameR p q
  | [], r, p, hk, _ => ⟨p, hk, .rfl, rfl⟩
  | op :: t, r, p, hk, h => by
    have hstep : ∃ q, (op.run e r).2 key = some q ∧ SameR p q := by
      by_cases hop : op.key = key
      · subst hop
        have hc := h op (by simp) rfl
        obtain ⟨q, h1, h2⟩ := run_sameK e op r p hk (by cases op <;> first | rfl | exact nomatch hc)
        exact ⟨q, h1, h2, run_m2 e op r p q hk hc h1⟩
      · exact ⟨p, by rw [run_other e op r key (fun h => hop h.symm)]; exact hk, .rfl, rfl⟩
    obtain ⟨q, h1, h2⟩ := hstep
    obtain ⟨s, h3, h4⟩ := runOps_sameR e key t _ q h1 (fun o ho => h o (by simp [ho]))
    exact ⟨s, h3, h2.1.trans h4.1, h4.2.trans h2.2⟩

/-- C78. What does hold: as long as the party is not created again, draws no nonce and its stored round-2 messages do not
change, every third round gives the same answer (whatever the random denominators), so repeating the call alone
reveals nothing. -/
theorem C78_same_messages_same_answer {e : Env} {zs zs' : Nat → Int} {r r1 r2 : Reg} {key w1 w2 : Bytes} {p : Party} {x k : Int}
    (hk : r key = some p) (hx : p.keys.privXi = some x) (hx0 : 0 ≤ x ∧ x < 2 ^ 256) (hn : p.k = some k)
    (hn0 : 0 ≤ k ∧ k < 2 ^ 256) (hz : ∀ j, Ed.fe (zs j) % Ed.P ≠ 0) (hz' : ∀ j, Ed.fe (zs' j) % Ed.P ≠ 0)
    (h1 : OnsignRound3Exec e zs r key = (.ok w1, r1)) (ops : List Op)
    (hops : ∀ op ∈ ops, op.key = key → op.changes2 = false)
    (h2 : OnsignRound3Exec e zs' (runOps e ops r1) key = (.ok w2, r2)) : w2 = w1 := by
  obtain ⟨inv, -, hR⟩ := C78_R_is_sum
  obtain ⟨R1, A, p1, l1, a1, b1, c1, d1⟩ := C78_answer hk hx hx0 hn hn0 h1
  obtain ⟨p1', b1', c1'⟩ := hR hk hn hn0 hz h1
  rw [b1] at b1'; cases b1'
  have hs1 : SameR p p1 := by
    obtain ⟨q, q1, q2⟩ := withParty_sameK (.partyNotFound key) (r3Exec e zs) hk (r3Exec_sameK e zs p)
    have : r1 = (withParty (.partyNotFound key) r key (r3Exec e zs)).2 := by
      have h3 : withParty (.partyNotFound key) r key (r3Exec e zs) = (.ok w1, r1) := h1
      rw [h3]
    rw [← this, b1] at q1
    cases q1
    refine ⟨q2, ?_⟩
    rw [this, withParty_some _ _ hk] at b1
    simp only [set_same, Option.some.injEq] at b1
    rw [← b1]
    exact r3Exec_m2 e zs p
  obtain ⟨q, q1, q2, q3⟩ := runOps_sameR e key ops r1 p1 b1 hops
  obtain ⟨⟨i1, -, m1, x1, -⟩, k1, e1⟩ := hs1.1.trans q2
  have hm2 : q.m2 = p.m2 := q3.trans hs1.2
  obtain ⟨R2, A2, p2, l2, a2, b2, c2, d2⟩ := C78_answer (x := x) (k := k) q1 (x1.trans hx) hx0 (k1.trans hn) hn0 h2
  obtain ⟨p2', b2', c2'⟩ := hR q1 (k1.trans hn) hn0 hz' h2
  rw [b2] at b2'; cases b2'
  rw [e1, a1] at a2
  cases a2
  rw [i1, hm2, ← c1', c1, c2, Option.some.injEq, Int.natCast_inj] at c2'
  have hRR : R2 = R1 := leNat_inj _ _ (by rw [l1, l2]) c2'
  rw [d1, d2, m1, hRR]

end Tss.Onsign
