import Verif.Model.OnsignNet
import Verif.Lemmas.OnsignFinal
import Verif.Lemmas.KeygenHonest
import Verif.Props.Ed25519
/-! Honest signing: what the parties hold after each round, from facts about the honest messages. -/
namespace Tss.Onsign
open Tss Text Wire RangeProofs
open _root_.Tss.Keygen (forJ forJ_cons_ok getD_set)

/-- Honest signers: what every party was created with, and that the honest proofs exist, verify and survive the
wire.  The key `AOf i` party `i` signs for is what its stored public shares add up to: the signers need not hold all the
shares, nor sign for the same key or the same message.
`Props/OnsignSetup.lean` derives this from conditions on the inputs and the draws. -/
structure GFacts (e : Env) (S : Session) where
  ids : List PartyID
  keys : Nat → Keygen.SaveData
  mOf : Nat → Int
  x : Nat → Int
  AOf : Nat → Ed.Point
  N : Nat → Int
  ped : Nat → Ped
  K : Nat → Int
  enc : Nat → Nat → EncMsg
  log : Nat → Nat → LogMsg
  keyInj : ∀ i j, i < S.n → j < S.n → S.key i = S.key j → i = j
  lids : ids.length = S.n
  create : ∀ i, i < S.n → ∀ r, NewLocalParty e r (S.key i) (S.args i) =
    (.ok (), r.set (S.key i) (some (freshParty S.n i ids (keys i) (mOf i))))
  priv : ∀ i, i < S.n → (keys i).privXi = some (x i)
  xr : ∀ i, i < S.n → 0 ≤ x i ∧ x i < 2 ^ 256
  pubs : ∀ i, i < S.n → ∃ X0 t, (keys i).pubXj = some X0 :: t ∧ sumPub 1 X0 t = .ok (Ed.lawful.pt (AOf i))
  paillier : ∀ i j, i < S.n → j < S.n → (keys i).paillierPKs.getD j none = some (N j)
  peds : ∀ i j, i < S.n → j < S.n → (keys i).ringPedersenPKs.getD j none = some (ped j)
  kr : ∀ i, i < S.n → 0 ≤ (S.rnd i).k ∧ (S.rnd i).k < N i ∧ (S.rnd i).k < 2 ^ 256
  cipher : ∀ i, i < S.n → Paillier.cipher (N i) (S.rnd i).k (S.rnd i).rho = some (K i)
  Kpos : ∀ i, i < S.n → 0 ≤ K i
  encNew : ∀ i j, i < S.n → j < S.n → NewEncryptRangeMessage e.Hb proofParameter (context ssidConst i) (K i) (N i)
    (S.rnd i).k (S.rnd i).rho (ped j) ((S.rnd i).enc j) = .ok (enc i j)
  encVer : ∀ i j, i < S.n → j < S.n →
    (enc i j).verify e.Hb proofParameter (context ssidConst i) (K i) (N i) (ped j) = .ok ()
  encRt : ∀ i j, i < S.n → j < S.n → encUnmarshal (encMarshal (enc i j)) = some (enc i j)
  logNew : ∀ i j, i < S.n → j < S.n → NewKnowExponent e.Hb Ed.curve proofParameter (context ssidConst i) (S.rnd i).k
    (S.rnd i).rho (K i) (N i) (ped j) (Ed.lawful.pt ((S.rnd i).k • Ed.B)) ⟨Ed.curve.Gx, Ed.curve.Gy⟩ (S.draws i j) =
      .ok (log i j)
  logVer : ∀ i j, i < S.n → j < S.n → (log i j).verify e.Hb Ed.curve proofParameter (context ssidConst i) (K i) (N i)
    (ped j) (Ed.lawful.pt ((S.rnd i).k • Ed.B)) ⟨Ed.curve.Gx, Ed.curve.Gy⟩ = .ok ()
  logRt : ∀ i j, i < S.n → j < S.n → logUnmarshal (logMarshal (log i j)) = some (log i j)
  zs : ∀ i j, i < S.n → j < S.n → Ed.fe (S.zs i j) % Ed.P ≠ 0
  encLen : ∀ i j, i < S.n → j < S.n → (encMarshal (enc i j)).length < 2 ^ 63
  logLen : ∀ i j, i < S.n → j < S.n → (logMarshal (log i j)).length < 2 ^ 60
  KLen : ∀ i, i < S.n → (intBytes (K i)).length < 2 ^ 63
  json : ∀ sd, (e.jsonSig sd).isSome = true

/-- Honest signers of one message under one key that hold all the shares of it. -/
structure Facts (e : Env) (S : Session) extends GFacts e S where
  same : ∀ i, i < S.n → mOf i = mOf 0 ∧ AOf i = AOf 0
  whole : AOf 0 = ((List.range S.n).map x).sum • Ed.B

instance {e : Env} {S : Session} : CoeOut (Facts e S) (GFacts e S) := ⟨Facts.toGFacts⟩

variable {e : Env} {S : Session} (F : GFacts e S)

namespace GFacts

/-- nonce point of party `i` -/
noncomputable def R (_ : GFacts e S) (i : Nat) : ECPoint := Ed.lawful.pt ((S.rnd i).k • Ed.B)
/-- the sum of the nonces times the base point -/
noncomputable def Rtot (_ : GFacts e S) : Ed.Point := ((List.range S.n).map fun j => (S.rnd j).k).sum • Ed.B
/-- the challenge scalar of party `i` -/
noncomputable def lamOf (i : Nat) : Nat :=
  leNat (e.sha512 (Ed.encode F.Rtot ++ Ed.encode (F.AOf i) ++ intBytes (F.mOf i))) % Ed.ord
/-- scalar share of party `i` -/
noncomputable def sg (i : Nat) : Nat := (F.lamOf i * (F.x i).natAbs + (S.rnd i).k.natAbs) % Ed.ord
/-- the scalar of the signature -/
noncomputable def stot : Nat := ((List.range S.n).map F.sg).sum % Ed.ord
/-- the signature record of party `i` -/
noncomputable def sigOf (i : Nat) : SigData :=
  ⟨Ed.encode F.Rtot ++ leFixed 32 F.stot, intBytes (leNat (Ed.encode F.Rtot)), intBytes F.stot, intBytes (F.mOf i)⟩
/-- the answers of the signers fit what party `i` signs -/
def Fits (i : Nat) : Prop :=
  ((List.range S.n).map fun j => (F.lamOf j : Int) * F.x j).sum • Ed.B = F.lamOf i • F.AOf i

/-- contents of the messages from `i` to `j` -/
noncomputable def cont : Mk → Nat → Nat → Content
  | .a, i, _ => .sg1a (intBytes (F.K i))
  | .b, i, j => .sg1b (encMarshal (F.enc i j))
  | .two, i, j => .sg2 (intBytes (F.R i).x) (intBytes (F.R i).y) (logMarshal (F.log i j))
  | .three, i, _ => .sg3 (intBytes (F.sg i))

end GFacts

namespace Facts
variable (F : Facts e S)

/-- the message -/
def m : Int := F.mOf 0
/-- the group key -/
def A : Ed.Point := F.AOf 0
/-- the challenge scalar -/
noncomputable def lam : Nat := F.lamOf 0
/-- the signature record -/
noncomputable def sig : SigData := F.sigOf 0

theorem mOf_eq {i : Nat} (hi : i < S.n) : F.mOf i = F.m := (F.same i hi).1
theorem AOf_eq {i : Nat} (hi : i < S.n) : F.AOf i = F.A := (F.same i hi).2
theorem lamOf_eq {i : Nat} (hi : i < S.n) : F.lamOf i = F.lam := by
  unfold lam GFacts.lamOf
  rw [(F.same i hi).1, (F.same i hi).2]
theorem sigOf_eq {i : Nat} (hi : i < S.n) : F.sigOf i = F.sig := by
  unfold sig GFacts.sigOf
  rw [(F.same i hi).1]
theorem sg_eq {i : Nat} (hi : i < S.n) : F.sg i = (F.lam * (F.x i).natAbs + (S.rnd i).k.natAbs) % Ed.ord := by
  unfold GFacts.sg
  rw [F.lamOf_eq hi]
theorem lam_eq : F.lam = leNat (e.sha512 (Ed.encode F.Rtot ++ Ed.encode F.A ++ intBytes F.m)) % Ed.ord := rfl
theorem sig_def : F.sig = ⟨Ed.encode F.Rtot ++ leFixed 32 F.stot, intBytes (leNat (Ed.encode F.Rtot)), intBytes F.stot, intBytes F.m⟩ := rfl
theorem A_eq : F.A = ((List.range S.n).map F.x).sum • Ed.B := F.whole

theorem fits {i : Nat} (hi : i < S.n) : F.Fits i := by
  unfold GFacts.Fits
  have h : ((List.range S.n).map fun j => (F.lamOf j : Int) * F.x j) = (List.range S.n).map fun j => (F.lam : Int) * F.x j :=
    List.map_congr_left fun j hj => by rw [F.lamOf_eq (List.mem_range.mp hj)]
  rw [h, List.sum_map_mul_left, F.lamOf_eq hi, F.AOf_eq hi, F.A_eq, mul_smul, natCast_zsmul]

end Facts

theorem coords_small (g : Ed.Point) : 0 ≤ (Ed.lawful.pt g).x ∧ (Ed.lawful.pt g).x < 256 ^ 32 ∧
    0 ≤ (Ed.lawful.pt g).y ∧ (Ed.lawful.pt g).y < 256 ^ 32 := by
  have h1 := ZMod.val_lt g.x
  have h2 := ZMod.val_lt g.y
  have hP := Ed.P_lt
  have hx : (Ed.lawful.pt g).x = (g.x.val : Nat) := rfl
  have hy : (Ed.lawful.pt g).y = (g.y.val : Nat) := rfl
  rw [hx, hy]
  have h3 : g.x.val < 256 ^ 32 := by omega
  have h4 : g.y.val < 256 ^ 32 := by omega
  exact ⟨by omega, by exact_mod_cast h3, by omega, by exact_mod_cast h4⟩

theorem GFacts.sg_lt (i : Nat) : F.sg i < Ed.ord := Nat.mod_lt _ Ed.ord_prime.pos

theorem GFacts.parse (mk : Mk) (i j : Nat) (hi : i < S.n) (hj : j < S.n) :
    parseWireMsg (wireBytes (F.cont mk i j)) = some (F.cont mk i j) := by
  have p60 : (2 : Nat) ^ 60 + 2 ^ 60 < 2 ^ 64 := by norm_num
  have p63 : (2 : Nat) ^ 63 + 2 ^ 60 < 2 ^ 64 := by norm_num
  have p1 : 1000 < (2 : Nat) ^ 60 := by norm_num
  have hle := F.encLen i j hi hj
  have hll := F.logLen i j hi hj
  have hK := F.KLen i hi
  obtain ⟨x1, x2, x3, x4⟩ := coords_small ((S.rnd i).k • Ed.B)
  have lx : (intBytes (F.R i).x).length ≤ 32 := Keygen.intBytes_len x1 x2
  have ly : (intBytes (F.R i).y).length ≤ 32 := Keygen.intBytes_len x3 x4
  have hord : Ed.ord < 256 ^ 32 := by decide +kernel
  have ls : (intBytes (F.sg i : Int)).length ≤ 32 := by
    have := F.sg_lt i
    have h : F.sg i < 256 ^ 32 := by omega
    exact Keygen.intBytes_len (by omega) (by exact_mod_cast h)
  generalize (2 : Nat) ^ 60 = q60 at *
  generalize (2 : Nat) ^ 63 = q63 at *
  generalize hq : (2 : Nat) ^ 64 = q64 at *
  apply parse_wireBytes
  · rw [hq]
    cases mk
    · simp only [GFacts.cont, Content.parts, List.mem_singleton, forall_eq]; omega
    · simp only [GFacts.cont, Content.parts, List.mem_singleton, forall_eq]; omega
    · simp only [GFacts.cont, Content.parts, List.mem_cons, List.not_mem_nil, or_false]
      rintro b (rfl | rfl | rfl) <;> omega
    · simp only [GFacts.cont, Content.parts, List.mem_singleton, forall_eq]; omega
  · rw [hq]
    refine lt_of_le_of_lt (Keygen.marshal_len _) ?_
    cases mk
    · have := Keygen.sing_len 1 (intBytes (F.K i))
      simp only [GFacts.cont, Content.fields]; omega
    · have := Keygen.sing_len 1 (encMarshal (F.enc i j))
      simp only [GFacts.cont, Content.fields]; omega
    · have h1 := Keygen.sing_len 1 (intBytes (F.R i).x)
      have h2 := Keygen.sing_len 2 (intBytes (F.R i).y)
      have h3 := Keygen.sing_len 3 (logMarshal (F.log i j))
      simp only [GFacts.cont, Content.fields, List.map_append, List.sum_append]
      omega
    · have := Keygen.sing_len 1 (intBytes (F.sg i : Int))
      simp only [GFacts.cont, Content.fields]; omega

/-! ### the invariant of one party -/

/-- the message slots of a type -/
def Mk.slots : Mk → Party → List Bytes
  | .a, p => p.m11
  | .b, p => p.m12
  | .two, p => p.m2
  | .three, p => p.m3

/-- replace the message slots of a type -/
def Mk.put : Mk → Party → List Bytes → Party
  | .a, p, l => { p with m11 := l }
  | .b, p, l => { p with m12 := l }
  | .two, p, l => { p with m2 := l }
  | .three, p, l => { p with m3 := l }

/-- the stage from which a party has its own message of this type -/
def Mk.stage : Mk → Nat
  | .a => 2
  | .b => 2
  | .two => 3
  | .three => 4

/-- what holds for party `i` at stage `k` -/
structure PI (i k : Nat) (got : Mk → Nat → Bool) (p : Party) : Prop where
  index : p.index = i
  ids : p.ids = F.ids
  m : p.m = F.mOf i
  keys : ∃ ep, p.keys = { F.keys i with eddsaPub := ep }
  lm : ∀ mk : Mk, (mk.slots p).length = S.n
  ls1 : p.send12.length = S.n
  ls2 : p.send2.length = S.n
  lkc : p.kc.length = S.n
  s1 : 2 ≤ k → p.ssid = ssidConst ∧ p.k = some (S.rnd i).k ∧ p.rho = some (S.rnd i).rho ∧
    p.kc.getD i none = some (F.K i) ∧ p.keys.eddsaPub = some (Ed.lawful.pt (F.AOf i))
  send1 : 2 ≤ k → ∀ j, j < S.n → p.send12.getD j [] = wireBytes (F.cont .b i j)
  s2 : 3 ≤ k → ∀ j, j < S.n → p.kc.getD j none = some (F.K j)
  send2 : 3 ≤ k → ∀ j, j < S.n → p.send2.getD j [] = wireBytes (F.cont .two i j)
  s3 : 4 ≤ k → p.si = some (leFixed 32 (F.sg i)) ∧ p.r = some (leNat (Ed.encode F.Rtot) : Int)
  own : ∀ mk : Mk, mk.stage ≤ k → (mk.slots p).getD i [] = wireBytes (F.cont mk i i)
  recv : ∀ mk j, got mk j = true → (mk.slots p).getD j [] = wireBytes (F.cont mk j i)

variable {F}

theorem PI.fresh (i : Nat) (got : Mk → Nat → Bool) (hg : ∀ mk j, got mk j = false) :
    PI F i 1 got (freshParty S.n i F.ids (F.keys i) (F.mOf i)) := by
  constructor <;> try (intros; omega)
  · rfl
  · rfl
  · rfl
  · exact ⟨_, rfl⟩
  · intro mk; cases mk <;> simp [Mk.slots, freshParty]
  · simp [freshParty]
  · simp [freshParty]
  · simp [freshParty]
  · intro mk h; cases mk <;> simp [Mk.stage] at h
  · intro mk j h; rw [hg] at h; cases h

theorem PI.got_congr {i k : Nat} {got got' : Mk → Nat → Bool} {p : Party} (h : PI F i k got p)
    (hg : ∀ mk j, got' mk j = got mk j) : PI F i k got' p :=
  { h with recv := fun mk j hj => h.recv mk j (by rw [← hg]; exact hj) }

theorem put_slots (mk mk' : Mk) (p : Party) (l : List Bytes) :
    mk'.slots (mk.put p l) = if mk' = mk then l else mk'.slots p := by
  cases mk <;> cases mk' <;> rfl

/-- storing an honest message -/
theorem PI.store {i k j : Nat} {got got' : Mk → Nat → Bool} {p : Party} (h : PI F i k got p) (mk : Mk)
    (hg : ∀ mk' j', got' mk' j' = true → got mk' j' = true ∨ (mk' = mk ∧ j' = j)) (hj : j < S.n) :
    PI F i k got' (mk.put p ((mk.slots p).set j (wireBytes (F.cont mk j i)))) := by
  have hm : ∀ mk' : Mk, mk'.slots (mk.put p ((mk.slots p).set j (wireBytes (F.cont mk j i)))) =
      if mk' = mk then (mk.slots p).set j (wireBytes (F.cont mk j i)) else mk'.slots p := fun mk' => put_slots mk mk' p _
  have hget : ∀ (mk' : Mk) (j' : Nat), (mk'.slots p).getD j' [] = wireBytes (F.cont mk' j' i) →
      (mk'.slots (mk.put p ((mk.slots p).set j (wireBytes (F.cont mk j i))))).getD j' [] = wireBytes (F.cont mk' j' i) := by
    intro mk' j' hh
    rw [hm]
    split
    · next heq =>
      subst heq
      rw [getD_set]
      split
      · next hc => rw [hc.1]
      · exact hh
    · exact hh
  constructor
  · rw [← h.index]; cases mk <;> rfl
  · rw [← h.ids]; cases mk <;> rfl
  · rw [← h.m]; cases mk <;> rfl
  · have := h.keys; cases mk <;> exact this
  · intro mk'
    rw [hm]
    split
    · rw [List.length_set]; exact h.lm mk
    · exact h.lm mk'
  · rw [← h.ls1]; cases mk <;> rfl
  · rw [← h.ls2]; cases mk <;> rfl
  · rw [← h.lkc]; cases mk <;> rfl
  · have := h.s1; cases mk <;> exact this
  · have := h.send1; cases mk <;> exact this
  · have := h.s2; cases mk <;> exact this
  · have := h.send2; cases mk <;> exact this
  · have := h.s3; cases mk <;> exact this
  · intro mk' hk; exact hget mk' i (h.own mk' hk)
  · intro mk' j' hj'
    rcases hg mk' j' hj' with hh | ⟨rfl, rfl⟩
    · exact hget mk' j' (h.recv mk' j' hh)
    · rw [hm, if_pos rfl, getD_set, if_pos ⟨rfl, by rw [h.lm]; exact hj⟩]

/-- every slot of a type holds the honest message once all have arrived -/
theorem PI.all {i k : Nat} {got : Mk → Nat → Bool} {p : Party} (h : PI F i k got p) (mk : Mk) (hk : mk.stage ≤ k)
    (hg : ∀ j, j < S.n → j ≠ i → got mk j = true) (j : Nat) (hj : j < S.n) :
    (mk.slots p).getD j [] = wireBytes (F.cont mk j i) := by
  by_cases hji : j = i
  · subst hji; exact h.own mk hk
  · exact h.recv mk j (hg j hj hji)

/-! ### round 1 -/

theorem range_cons {n : Nat} (h : 0 < n) : ∃ t, List.range n = 0 :: t := by
  obtain ⟨m, rfl⟩ : ∃ m, n = m + 1 := ⟨n - 1, by omega⟩
  exact ⟨_, List.range_succ_eq_map⟩

/-- the sum of the public shares of `n` parties -/
theorem sumPub_shares (x : Nat → Int) {n : Nat} (hn : 0 < n) : ∃ X0 t,
    ((List.range n).map fun j => some (Ed.lawful.pt (x j • Ed.B))) = some X0 :: t ∧
    sumPub 1 X0 t = .ok (Ed.lawful.pt (((List.range n).map x).sum • Ed.B)) := by
  obtain ⟨t, ht⟩ := range_cons hn
  refine ⟨Ed.lawful.pt (x 0 • Ed.B), t.map fun j => some (Ed.lawful.pt (x j • Ed.B)), by rw [ht]; rfl, ?_⟩
  rw [sumPub_ok_iff]
  have h := Keygen.sumPub_all (e := ⟨Ed.curve, fun b => b, fun _ => none⟩) (L := Ed.lawful) 1 (x 0 • Ed.B)
    (fun j => x j • Ed.B) t
  rw [← List.sum_cons, ← List.map_cons (f := fun j => x j • Ed.B), ← ht, ← Keygen.sum_smul] at h
  exact h

theorem PI.exec1 {i : Nat} {got : Mk → Nat → Bool} {p : Party} (h : PI F i 1 got p) (hi : i < S.n) :
    ∃ p', r1Exec e (S.rnd i) p = (.ok (wireBytes (F.cont .a i i)), p') ∧ PI F i 2 got p' := by
  obtain ⟨ep, hkeys⟩ := h.keys
  obtain ⟨X0, t, hX, hsum⟩ := F.pubs i hi
  obtain ⟨p1, hp1⟩ : ∃ p1 : Party, p1 = { resetOK { p with number := 1 } with
      ssid := ssidConst
      keys := { F.keys i with eddsaPub := some (Ed.lawful.pt (F.AOf i)) }
      k := some (S.rnd i).k
      rho := some (S.rnd i).rho
      kc := p.kc.set i (some (F.K i))
      m11 := p.m11.set i (wireBytes (F.cont .a i i)) } := ⟨_, rfl⟩
  have key : r1Exec e (S.rnd i) p = r1Proofs e (S.rnd i) (F.N i) (F.K i) p1 := by
    obtain ⟨k0, k1, -⟩ := F.kr i hi
    unfold r1Exec r1Body
    simp only [resetOK, hkeys, hX]
    rw [hsum]
    simp only
    unfold r1Encrypt
    simp only [h.index]
    rw [F.paillier i i hi hi]
    simp only
    rw [if_neg (by push Not; exact ⟨k0, k1⟩), F.cipher i hi]
    simp only
    rw [← hX, hp1]
    simp only [resetOK, h.index, GFacts.cont]
  obtain ⟨a, b, l1, l2, l3, l4, l5⟩ := forJ_slots (step := r1Step e (S.rnd i) (F.N i) (F.K i))
    (fun j => wireBytes (F.cont .b i j)) (fun q => (q.send12, q.m12)) (fun q v => { q with send12 := v.1, m12 := v.2 }) i
    (fun _ _ => rfl) (fun _ _ _ => rfl) (fun _ => rfl)
    (fun q => q.keys = { F.keys i with eddsaPub := some (Ed.lawful.pt (F.AOf i)) } ∧ q.ssid = ssidConst ∧ q.index = i)
    (fun q v hq => hq) (fun j => j < S.n)
    (by
      rintro q j hj ⟨c1, c2, c3⟩
      unfold r1Step
      simp only [c1, c2, c3]
      rw [F.peds i j hi hj]
      simp only
      rw [F.encNew i j hi hj]
      rfl)
    (List.range p1.ids.length) p1
    (fun j hj => by rw [List.mem_range, hp1] at hj; have := F.lids; rw [← h.ids] at this; rw [← this]; exact hj)
    ⟨by rw [hp1], by rw [hp1], by rw [hp1]; exact h.index⟩
  have hlen : p1.ids.length = S.n := by rw [hp1]; show p.ids.length = _; rw [h.ids, F.lids]
  have ls1 : p1.send12.length = S.n := by rw [hp1]; exact h.ls1
  have lm12 : p1.m12.length = S.n := by rw [hp1]; exact h.lm .b
  simp only [hlen, ls1, lm12] at l1 l2 l3 l4 l5
  refine ⟨{ p1 with send12 := a, m12 := b }, ?_, ?_⟩
  · rw [key]
    unfold r1Proofs
    rw [hlen, l1]
    rfl
  · have h1 := h.store (j := i) (got' := got) .a (fun _ _ hh => .inl hh) hi
    have hb : ∀ j, j ≠ i → b.getD j [] = p.m12.getD j [] := by
      intro j hj
      rw [l5, if_neg (by rintro ⟨-, h2, -⟩; exact hj h2), hp1]; rfl
    have hbi : b.getD i [] = wireBytes (F.cont .b i i) := by
      rw [l5, if_pos ⟨by simpa using hi, rfl, hi⟩]
    constructor
    · rw [hp1]; exact h.index
    · rw [hp1]; exact h.ids
    · rw [hp1]; exact h.m
    · rw [hp1]; exact ⟨_, rfl⟩
    · intro mk
      cases mk
      · rw [hp1]; simp only [Mk.slots, List.length_set]; exact h.lm .a
      · exact l3
      · rw [hp1]; exact h.lm .two
      · rw [hp1]; exact h.lm .three
    · exact l2
    · rw [hp1]; exact h.ls2
    · rw [hp1]; simp only [List.length_set]; exact h.lkc
    · intro _
      rw [hp1]
      refine ⟨rfl, rfl, rfl, ?_, rfl⟩
      simp only
      rw [getD_set, if_pos ⟨rfl, by rw [h.lkc]; exact hi⟩]
    · intro _ j hj
      show a.getD j [] = _
      rw [l4, if_pos ⟨by simpa using hj, hj⟩]
    · intro hk; omega
    · intro hk; omega
    · intro hk; omega
    · intro mk hk
      cases mk
      · rw [hp1]
        show (p.m11.set i _).getD i [] = _
        rw [getD_set, if_pos ⟨rfl, by rw [show p.m11.length = S.n from h.lm .a]; exact hi⟩]
      · exact hbi
      · simp [Mk.stage] at hk
      · simp [Mk.stage] at hk
    · intro mk j hj
      have hr := h1.recv mk j hj
      cases mk
      · rw [hp1]; exact hr
      · show b.getD j [] = _
        by_cases hji : j = i
        · subst hji; exact hbi
        · rw [hb j hji]; exact hr
      · rw [hp1]; exact hr
      · rw [hp1]; exact hr

/-! ### round 2 -/

theorem base_new : ECPoint.new Ed.curve Ed.curve.Gx Ed.curve.Gy = some ⟨Ed.curve.Gx, Ed.curve.Gy⟩ := by
  unfold ECPoint.new
  rw [if_pos Ed.lawful.base_onCurve]

theorem scalarBase (k : Int) : ECPoint.scalarBaseMult Ed.curve k = some (Ed.lawful.pt (k • Ed.B)) :=
  Ed.lawful.scalarBaseMult_pt k

theorem r2Prove_ok {draws : Nat → Draws} {k rho K n : Int} {Ri G : ECPoint} {p : Party} {j : Nat} {ped : Ped} {m : LogMsg}
    (h1 : p.keys.ringPedersenPKs.getD j none = some ped)
    (h2 : NewKnowExponent e.Hb Ed.curve proofParameter (context p.ssid p.index) k rho K n ped Ri G (draws j) = .ok m)
    (h3 : m.verify e.Hb Ed.curve proofParameter (context p.ssid p.index) K n ped Ri G = .ok ()) :
    r2Prove e draws k rho K n Ri G p j = (.ok (), { p with
      send2 := p.send2.set j (wireBytes (.sg2 (intBytes Ri.x) (intBytes Ri.y) (logMarshal m)))
      m2 := if j = p.index then p.m2.set j (wireBytes (.sg2 (intBytes Ri.x) (intBytes Ri.y) (logMarshal m))) else p.m2 }) := by
  unfold r2Prove
  generalize Ed.curve = cv at *
  rw [h1]
  simp only
  rw [h2]
  simp only
  rw [h3]

theorem PI.exec2 {i : Nat} {got : Mk → Nat → Bool} {p : Party} (h : PI F i 2 got p) (hi : i < S.n)
    (ha : ∀ j, j < S.n → j ≠ i → got .a j = true) (hb : ∀ j, j < S.n → j ≠ i → got .b j = true) :
    ∃ p', r2Exec e (S.draws i) p = (.ok (), p') ∧ PI F i 3 got p' := by
  obtain ⟨ep, hkeys⟩ := h.keys
  obtain ⟨s1, s2, s3, s4, s5⟩ := h.s1 (by omega)
  have l11 : p.m11.length = S.n := h.lm .a
  have hm11 : ∀ j, j < S.n → parseWireMsg (p.m11.getD j []) = some (.sg1a (intBytes (F.K j))) := by
    intro j hj
    have := h.all .a (by simp [Mk.stage]) ha j hj
    rw [show p.m11 = Mk.a.slots p from rfl, this, F.parse .a j i hj hi]; rfl
  have hm12 : ∀ j, j < S.n → parseWireMsg (p.m12.getD j []) = some (.sg1b (encMarshal (F.enc j i))) := by
    intro j hj
    have := h.all .b (by simp [Mk.stage]) hb j hj
    rw [show p.m12 = Mk.b.slots p from rfl, this, F.parse .b j i hj hi]; rfl
  have hKb : ∀ j, j < S.n → ((beNat (intBytes (F.K j)) : Nat) : Int) = F.K j := fun j hj => Keygen.beNat_coord (F.Kpos j hj)
  obtain ⟨kc, f1, f2, f3⟩ := r2fold (List.range p.m11.length) (resetOK { p with number := 2 })
  obtain ⟨p2, hp2⟩ : ∃ p2, p2 = { resetOK { p with number := 2 } with kc := kc } := ⟨_, rfl⟩
  have hloop : forJ (r2Verify e) (List.range p.m11.length) (resetOK { p with number := 2 }) = (.ok (), p2) := by
    rw [r2Loop_ok_iff, f1]
    refine ⟨?_, hp2⟩
    intro j hj hji
    rw [List.mem_range, l11] at hj
    refine ⟨intBytes (F.K j), F.enc j i, encMarshal (F.enc j i), F.N j, F.ped i, hm11 j hj, hm12 j hj, F.encRt j i hj hi,
      ?_, ?_, ?_⟩
    · show p.keys.paillierPKs.getD j none = _
      rw [hkeys]; exact F.paillier i j hi hj
    · show p.keys.ringPedersenPKs.getD p.index none = _
      rw [hkeys, h.index]; exact F.peds i i hi hi
    · show (F.enc j i).verify e.Hb proofParameter (context p.ssid j) _ _ _ = _
      rw [s1, hKb j hj]; exact F.encVer j i hj hi
  have hkc : ∀ j, j < S.n → kc.getD j none = some (F.K j) := by
    intro j hj
    rw [f3]
    by_cases hji : j = i
    · subst hji
      rw [if_neg (by rintro ⟨-, h2, -⟩; exact h2 h.index.symm)]
      exact s4
    · rw [if_pos ⟨by rw [List.mem_range, l11]; exact hj, by show j ≠ p.index; rw [h.index]; exact hji,
        by show j < p.kc.length; rw [h.lkc]; exact hj⟩]
      unfold kcOf
      rw [show (resetOK { p with number := 2 }).m11 = p.m11 from rfl, hm11 j hj]
      simp only [hKb j hj]
  obtain ⟨a, b, l1, l2, l3, l4, l5⟩ := forJ_slots (step := r2Prove e (S.draws i) (S.rnd i).k (S.rnd i).rho (F.K i) (F.N i)
      (Ed.lawful.pt ((S.rnd i).k • Ed.B)) ⟨Ed.curve.Gx, Ed.curve.Gy⟩)
    (fun j => wireBytes (F.cont .two i j)) (fun q => (q.send2, q.m2)) (fun q v => { q with send2 := v.1, m2 := v.2 }) i
    (fun _ _ => rfl) (fun _ _ _ => rfl) (fun _ => rfl)
    (fun q => q.keys = p.keys ∧ q.ssid = ssidConst ∧ q.index = i)
    (fun q v hq => hq) (fun j => j < S.n)
    (by
      rintro q j hj ⟨c1, c2, c3⟩
      have hp := F.peds i j hi hj
      have hn := F.logNew i j hi hj
      have hv := F.logVer i j hi hj
      rw [r2Prove_ok (m := F.log i j) (by rw [c1, hkeys]; exact hp) (by rw [c2, c3]; exact hn) (by rw [c2, c3]; exact hv), c3]
      rfl)
    (List.range p2.ids.length) p2
    (fun j hj => by rw [List.mem_range, hp2] at hj; have := F.lids; rw [← h.ids] at this; rw [← this]; exact hj)
    ⟨by rw [hp2]; rfl, by rw [hp2]; exact s1, by rw [hp2]; exact h.index⟩
  have hlen : p2.ids.length = S.n := by rw [hp2]; show p.ids.length = _; rw [h.ids, F.lids]
  have ls2 : p2.send2.length = S.n := by rw [hp2]; exact h.ls2
  have lm2 : p2.m2.length = S.n := by rw [hp2]; exact h.lm .two
  simp only [hlen, ls2, lm2] at l1 l2 l3 l4 l5
  have hi2 : p2.index = i := by rw [hp2]; exact h.index
  refine ⟨{ p2 with send2 := a, m2 := b }, ?_, ?_⟩
  · rw [r2Exec_ok_iff]
    refine ⟨p2, (S.rnd i).k, ⟨Ed.curve.Gx, Ed.curve.Gy⟩, Ed.lawful.pt ((S.rnd i).k • Ed.B), (S.rnd i).rho, F.K i, F.N i,
      hloop, by rw [hp2]; exact s2, base_new, scalarBase _, by rw [hp2]; exact s3, ?_, ?_, ?_⟩
    · rw [hi2, hp2]; exact hkc i hi
    · rw [hi2, hp2]
      show p.keys.paillierPKs.getD i none = _
      rw [hkeys]; exact F.paillier i i hi hi
    · rw [hlen]; exact l1
  · have hb' : ∀ j, j ≠ i → b.getD j [] = p.m2.getD j [] := by
      intro j hj
      rw [l5, if_neg (by rintro ⟨-, h2, -⟩; exact hj h2), hp2]; rfl
    have hbi : b.getD i [] = wireBytes (F.cont .two i i) := by
      rw [l5, if_pos ⟨by simpa using hi, rfl, hi⟩]
    constructor
    · exact hi2
    · rw [hp2]; exact h.ids
    · rw [hp2]; exact h.m
    · rw [hp2]; exact ⟨ep, hkeys⟩
    · intro mk
      cases mk
      · rw [hp2]; exact h.lm .a
      · rw [hp2]; exact h.lm .b
      · exact l3
      · rw [hp2]; exact h.lm .three
    · rw [hp2]; exact h.ls1
    · exact l2
    · rw [hp2]; show kc.length = _; rw [f2]; exact h.lkc
    · intro _
      rw [hp2]
      exact ⟨s1, s2, s3, hkc i hi, s5⟩
    · intro _ j hj; rw [hp2]; exact h.send1 (by omega) j hj
    · intro _ j hj; rw [hp2]; exact hkc j hj
    · intro _ j hj
      show a.getD j [] = _
      rw [l4, if_pos ⟨by simpa using hj, hj⟩]
    · intro hk; omega
    · intro mk hk
      cases mk
      · rw [hp2]; exact h.own .a (by simp [Mk.stage])
      · rw [hp2]; exact h.own .b (by simp [Mk.stage])
      · exact hbi
      · simp [Mk.stage] at hk
    · intro mk j hj
      have hr := h.recv mk j hj
      cases mk
      · rw [hp2]; exact hr
      · rw [hp2]; exact hr
      · show b.getD j [] = _
        by_cases hji : j = i
        · subst hji; exact hbi
        · rw [hb' j hji]; exact hr
      · rw [hp2]; exact hr

end Tss.Onsign
