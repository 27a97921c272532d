import Verif.Model.KeygenNet
import Verif.Props.KeygenRounds
import Verif.Props.Wire
/-! Honest key generation: the invariant of the network. -/
namespace Tss.Keygen
open Tss Text Wire

/-- Size conditions, satisfied by the real curve, hash and draws: coordinates are non-negative and below
2^256, the order is below 2^256, digests and draws have at most 64 bytes. -/
structure Sizes {G : Type} [AddCommGroup G] (e : Env) (L : Lawful e.c G) (S : Session) : Prop where
  coords : ∀ g, 0 ≤ (L.coords g).1 ∧ (L.coords g).1 < 256 ^ 32 ∧ 0 ≤ (L.coords g).2 ∧ (L.coords g).2 < 256 ^ 32
  order : e.c.N ≤ 256 ^ 32
  hash : ∀ b, (e.H b).length ≤ 64
  draws : ∀ i, i < S.n → (S.rnd i).srid.length ≤ 64 ∧ (S.rnd i).u.length ≤ 64

section
variable {G : Type} [AddCommGroup G] (e : Env) (L : Lawful e.c G) (S : Session)

/-- the root key as an integer -/
def Session.x (i : Nat) : Int := (beNat ((hexDecode (S.root i)).getD []) : Int)

/-- public share -/
def shareX (i : Nat) : ECPoint := L.pt (S.x i • L.base)
/-- Schnorr commitment -/
def shareA (i : Nat) : ECPoint := L.pt ((S.rnd i).tau • L.base)
/-- round-1 commitment -/
def comm (i : Nat) : Bytes := commitHash e.H ssidConst i (S.rnd i).srid (shareX e L S i) (shareA e L S i) (S.rnd i).u
/-- common randomness -/
def common : Bytes := xorAll ((List.range S.n).map fun j => (S.rnd j).srid)
/-- challenge of party i -/
def chal (i : Nat) : Int := challenge e ssidConst (common S) i (shareX e L S i) (shareA e L S i)
/-- response of party i -/
def resp (i : Nat) : Int := Schnorr.Prove e.c.N (S.rnd i).tau (chal e L S i) (S.x i)

/-- contents of the three messages of party `i` -/
def cont : Round → Nat → Content
  | .one, i => .kg1 (comm e L S i)
  | .two, i => .kg2 ssidConst (S.rnd i).srid (intBytes (shareX e L S i).x) (intBytes (shareX e L S i).y)
      (intBytes (shareA e L S i).x) (intBytes (shareA e L S i).y) (S.rnd i).u [] [] []
  | .three, i => .kg3 (intBytes (resp e L S i)) [] []

/-- the joint public key -/
def jointPub : ECPoint := L.pt (((List.range S.n).map S.x).sum • L.base)

theorem sing_len (k : Nat) (b : Bytes) : ((sing k b).map fun p => 20 + p.2.length).sum ≤ 20 + b.length := by
  unfold sing; split <;> simp

variable {e L S}

theorem intBytes_len {z : Int} (h0 : 0 ≤ z) (h : z < 256 ^ 32) : (intBytes z).length ≤ 32 := by
  apply natBE_length_le
  have h2 : (z.natAbs : Int) < ((256 ^ 32 : Nat) : Int) := by
    rw [Int.natAbs_of_nonneg h0]; exact_mod_cast h
  exact_mod_cast h2

theorem marshal_len (c : Content) : c.marshal.length ≤ (c.fields.map fun p => 20 + p.2.length).sum := by
  rw [c.marshal_eq]; exact encFields_length_le _

theorem ssidConst_len : ssidConst.length = 15 := by decide

theorem comm_len (hs : Sizes e L S) (i : Nat) : (comm e L S i).length ≤ 64 := by
  unfold comm commitHash Common.SHA512_256
  simpa using hs.hash _

theorem resp_range (i : Nat) : 0 ≤ resp e L S i ∧ resp e L S i < e.c.N :=
  Schnorr.C28_response_range _ _ _ _ L.N_pos

theorem parse_cont (hs : Sizes e L S) (rd : Round) (i : Nat) (hi : i < S.n) :
    parseWireMsg (wireBytes (cont e L S rd i)) = some (cont e L S rd i) := by
  obtain ⟨d1, d2⟩ := hs.draws i hi
  obtain ⟨x1, x2, x3, x4⟩ := hs.coords (S.x i • L.base)
  obtain ⟨a1, a2, a3, a4⟩ := hs.coords ((S.rnd i).tau • L.base)
  have lx : (intBytes (shareX e L S i).x).length ≤ 32 := intBytes_len x1 x2
  have ly : (intBytes (shareX e L S i).y).length ≤ 32 := intBytes_len x3 x4
  have lax : (intBytes (shareA e L S i).x).length ≤ 32 := intBytes_len a1 a2
  have lay : (intBytes (shareA e L S i).y).length ≤ 32 := intBytes_len a3 a4
  obtain ⟨r1, r2⟩ := resp_range (e := e) (L := L) (S := S) i
  have lr : (intBytes (resp e L S i)).length ≤ 32 := intBytes_len r1 (lt_of_lt_of_le r2 hs.order)
  have lc := comm_len hs i
  have l0 := ssidConst_len
  apply parse_wireBytes
  · cases rd
    · simp only [cont, Content.parts, List.mem_singleton, forall_eq]; omega
    · simp only [cont, Content.parts, List.mem_cons, List.not_mem_nil, or_false]
      rintro b (rfl | rfl | rfl | rfl | rfl | rfl | rfl | rfl | rfl | rfl) <;> first | omega | simp
    · simp only [cont, Content.parts, List.mem_cons, List.not_mem_nil, or_false]
      rintro b (rfl | rfl) <;> first | omega | simp
  · refine lt_of_le_of_lt (marshal_len _) ?_
    cases rd
    · have := sing_len 1 (comm e L S i)
      simp only [cont, Content.fields]; omega
    · have h1 := sing_len 1 ssidConst
      have h3 := sing_len 3 (S.rnd i).srid
      have h4 := sing_len 4 (intBytes (shareX e L S i).x)
      have h5 := sing_len 5 (intBytes (shareX e L S i).y)
      have h6 := sing_len 6 (intBytes (shareA e L S i).x)
      have h7 := sing_len 7 (intBytes (shareA e L S i).y)
      have h8 := sing_len 8 (S.rnd i).u
      have h9 : sing 9 [] = [] := rfl
      have h10 : sing 10 [] = [] := rfl
      have h11 : sing 11 [] = [] := rfl
      simp only [cont, Content.fields, List.map_append, List.sum_append, h9, h10, h11, List.map_nil, List.sum_nil]
      omega
    · have h1 := sing_len 1 (intBytes (resp e L S i))
      have h3 : sing 3 [] = [] := rfl
      simp only [cont, Content.fields, List.map_append, List.sum_append, h3, List.map_nil, List.sum_nil]
      omega

theorem beNat_coord {z : Int} (h : 0 ≤ z) : ((beNat (intBytes z) : Nat) : Int) = z := by
  rw [beNat_intBytes]; omega

/-- decoding an honest round-2 message -/
theorem opening_cont (hs : Sizes e L S) (i : Nat) (hi : i < S.n) :
    opening e.c (wireBytes (cont e L S .two i)) =
      some ⟨shareX e L S i, shareA e L S i, ssidConst, (S.rnd i).srid, (S.rnd i).u⟩ := by
  obtain ⟨x1, x2, x3, x4⟩ := hs.coords (S.x i • L.base)
  obtain ⟨a1, a2, a3, a4⟩ := hs.coords ((S.rnd i).tau • L.base)
  unfold opening
  rw [parse_cont hs .two i hi]
  simp only [cont, shareX, shareA, Lawful.pt, beNat_coord x1, beNat_coord x3, beNat_coord a1, beNat_coord a3,
    L.new_coords]

/-! ### the invariant of one party -/

variable (S) in
/-- the party list every party of the session builds -/
def sortedIds : List PartyID := PartyID.SortPartyIDs ((buildIds S.pIDs 0 S.n).getD []) none

variable (e L S) in
/-- what holds for party `i` at stage `k` -/
structure PI (i k : Nat) (got : Round → Nat → Bool) (p : Party) : Prop where
  index : p.index = i
  lm : ∀ rd : Round, (rd.msgs p).length = S.n
  lV : p.V.length = S.n
  lpay : p.payload.length = S.n
  lpub : p.save.pubXj.length = S.n
  priv : p.save.privXi = some (S.x i)
  s1 : 2 ≤ k → p.ssid = ssidConst ∧ p.tau = some (S.rnd i).tau ∧ p.commitedA = some (shareA e L S i) ∧
    p.u = (S.rnd i).u ∧ p.save.pubXj.getD i none = some (shareX e L S i)
  srid1 : 2 ≤ k → k ≤ 3 → p.srid = (S.rnd i).srid
  s2 : 3 ≤ k → ∀ j, j < S.n → p.V.getD j [] = comm e L S j
  srid2 : 4 ≤ k → p.srid = common S
  s3 : 4 ≤ k → ∀ j, j < S.n → p.save.pubXj.getD j none = some (shareX e L S j) ∧
    (j ≠ i → p.payload.getD j none = some ⟨shareA e L S j, ssidConst, (S.rnd j).srid, (S.rnd j).u⟩)
  s4 : 5 ≤ k → p.save.eddsaPub = some (jointPub e L S)
  own : ∀ rd : Round, rd.num + 1 ≤ k → (rd.msgs p).getD i [] = wireBytes (cont e L S rd i)
  recv : ∀ rd j, got rd j = true → (rd.msgs p).getD j [] = wireBytes (cont e L S rd j)
  idk : p.ids = sortedIds S ∧ (2 ≤ k → p.save.ks = (PartyID.Keys (sortedIds S)).map some ∧
    p.save.shareID = (PartyID.Keys (sortedIds S))[i]?)

theorem PI.fresh (i : Nat) (got : Round → Nat → Bool) (hg : ∀ rd j, got rd j = false) :
    PI e L S i 1 got (freshParty S.n i (sortedIds S) (S.x i)) := by
  constructor <;> try (intros; omega)
  · rfl
  · intro rd; cases rd <;> simp [Round.msgs, freshParty]
  · simp [freshParty]
  · simp [freshParty]
  · simp [freshParty, newSaveData]
  · rfl
  · intro rd h; cases rd <;> simp [Round.num] at h
  · intro rd j h; rw [hg] at h; cases h
  · exact ⟨rfl, fun h => by omega⟩

/-- the same facts for a party that differs only in fields the invariant does not mention -/
theorem PI.congr {i k : Nat} {got : Round → Nat → Bool} {p q : Party} (h : PI e L S i k got p)
    (h1 : q.index = p.index) (h2 : ∀ rd : Round, rd.msgs q = rd.msgs p) (h3 : q.V = p.V) (h4 : q.payload = p.payload)
    (h5 : q.save.pubXj = p.save.pubXj) (h6 : q.save.privXi = p.save.privXi) (h7 : q.ssid = p.ssid) (h8 : q.tau = p.tau)
    (h9 : q.commitedA = p.commitedA) (h10 : q.u = p.u) (h11 : q.srid = p.srid) (h12 : q.save.eddsaPub = p.save.eddsaPub)
    (h13 : q.ids = p.ids) (h14 : q.save.ks = p.save.ks) (h15 : q.save.shareID = p.save.shareID) :
    PI e L S i k got q := by
  constructor
  · rw [h1]; exact h.index
  · intro rd; rw [h2]; exact h.lm rd
  · rw [h3]; exact h.lV
  · rw [h4]; exact h.lpay
  · rw [h5]; exact h.lpub
  · rw [h6]; exact h.priv
  · rw [h7, h8, h9, h10, h5]; exact h.s1
  · rw [h11]; exact h.srid1
  · rw [h3]; exact h.s2
  · rw [h11]; exact h.srid2
  · rw [h5, h4]; exact h.s3
  · rw [h12]; exact h.s4
  · intro rd; rw [h2]; exact h.own rd
  · intro rd; rw [h2]; exact h.recv rd
  · rw [h13, h14, h15]; exact h.idk

theorem PI.got_congr {i k : Nat} {got got' : Round → Nat → Bool} {p : Party} (h : PI e L S i k got p)
    (hg : ∀ rd j, got' rd j = got rd j) : PI e L S i k got' p :=
  { h with recv := fun rd j hj => h.recv rd j (by rw [← hg]; exact hj) }

theorem put_msgs (rd rd' : Round) (p : Party) (l : List Bytes) :
    rd'.msgs (rd.put p l) = if rd' = rd then l else rd'.msgs p := by
  cases rd <;> cases rd' <;> rfl

/-- storing an honest message -/
theorem PI.store {i k j : Nat} {got got' : Round → Nat → Bool} {p : Party} (h : PI e L S i k got p) (rd : Round)
    (hg : ∀ rd' j', got' rd' j' = true → got rd' j' = true ∨ (rd' = rd ∧ j' = j)) (hj : j < S.n) :
    PI e L S i k got' (rd.put p ((rd.msgs p).set j (wireBytes (cont e L S rd j)))) := by
  have hm : ∀ rd' : Round, rd'.msgs (rd.put p ((rd.msgs p).set j (wireBytes (cont e L S rd j)))) =
      if rd' = rd then (rd.msgs p).set j (wireBytes (cont e L S rd j)) else rd'.msgs p := fun rd' => put_msgs rd rd' p _
  have hget : ∀ (rd' : Round) (j' : Nat), (rd'.msgs p).getD j' [] = wireBytes (cont e L S rd' j') →
      (rd'.msgs (rd.put p ((rd.msgs p).set j (wireBytes (cont e L S rd j))))).getD j' [] = wireBytes (cont e L S rd' j') := by
    intro rd' j' hh
    rw [hm]
    split
    · next heq =>
      subst heq
      rw [getD_set]
      split
      · next hc => rw [hc.1]
      · exact hh
    · exact hh
  have hs : (rd.put p ((rd.msgs p).set j (wireBytes (cont e L S rd j)))).save = p.save := by cases rd <;> rfl
  constructor
  · rw [← h.index]; cases rd <;> rfl
  · intro rd'
    rw [hm]
    split
    · rw [List.length_set]; exact h.lm rd
    · exact h.lm rd'
  · rw [← h.lV]; cases rd <;> rfl
  · rw [← h.lpay]; cases rd <;> rfl
  · rw [hs]; exact h.lpub
  · rw [hs]; exact h.priv
  · rw [hs]; have := h.s1; cases rd <;> exact this
  · have := h.srid1; cases rd <;> exact this
  · have := h.s2; cases rd <;> exact this
  · have := h.srid2; cases rd <;> exact this
  · rw [hs]; have := h.s3; cases rd <;> exact this
  · rw [hs]; exact h.s4
  · intro rd' hk; exact hget rd' i (h.own rd' hk)
  · intro rd' j' hj'
    rcases hg rd' j' hj' with hh | ⟨rfl, rfl⟩
    · exact hget rd' j' (h.recv rd' j' hh)
    · rw [hm, if_pos rfl, getD_set, if_pos ⟨rfl, by rw [h.lm]; exact hj⟩]
  · rw [hs]; have := h.idk; cases rd <;> exact this

/-! ### the rounds -/

theorem PI.exec1 {i : Nat} {got : Round → Nat → Bool} {p : Party} (h : PI e L S i 1 got p) (hi : i < S.n) :
    ∃ p', r1Exec e (S.rnd i) p = (.ok (wireBytes (cont e L S .one i)), p') ∧ PI e L S i 2 got p' := by
  have key : r1Exec e (S.rnd i) p = (.ok (wireBytes (cont e L S .one i)), { p with
      number := 1
      ok := p.ok.map fun _ => false
      ssid := ssidConst
      tau := some (S.rnd i).tau
      commitedA := some (shareA e L S i)
      u := (S.rnd i).u
      srid := (S.rnd i).srid
      save := { p.save with
        privXi := some (S.x i)
        pubXj := p.save.pubXj.set i (some (shareX e L S i))
        ks := (PartyID.Keys p.ids).map some
        shareID := (PartyID.Keys p.ids)[i]? }
      m1 := p.m1.set i (wireBytes (cont e L S .one i)) }) := by
    unfold r1Exec
    simp only [resetOK, h.index, h.priv, Option.getD_some, L.scalarBaseMult_pt]
    rfl
  refine ⟨_, key, ?_⟩
  have h1 := h.store (j := i) (got' := got) .one (fun _ _ hh => .inl hh) hi
  constructor
  · exact h.index
  · intro rd; have := h1.lm rd; cases rd <;> exact this
  · exact h.lV
  · exact h.lpay
  · simp only [List.length_set]; exact h.lpub
  · rfl
  · intro _
    refine ⟨rfl, rfl, rfl, rfl, ?_⟩
    rw [getD_set, if_pos ⟨rfl, by rw [h.lpub]; exact hi⟩]
  · intros; rfl
  · intro hk; omega
  · intro hk; omega
  · intro hk; omega
  · intro hk; omega
  · intro rd hk
    cases rd
    · simp only [Round.msgs, getD_set]
      rw [if_pos (by have := h.lm .one; simp only [Round.msgs] at this; simp only [true_and]; omega)]
    · simp [Round.num] at hk
    · simp [Round.num] at hk
  · intro rd j hj
    have := h1.recv rd j hj
    cases rd <;> exact this
  · refine ⟨h.idk.1, fun _ => ⟨?_, ?_⟩⟩
    · show (PartyID.Keys p.ids).map some = _
      rw [h.idk.1]
    · show (PartyID.Keys p.ids)[i]? = _
      rw [h.idk.1]

theorem PI.exec2 {i : Nat} {got : Round → Nat → Bool} {p : Party} (hs : Sizes e L S) (h : PI e L S i 2 got p)
    (hi : i < S.n) (hg : ∀ j, j < S.n → j ≠ i → got .one j = true) :
    ∃ p', r2Exec p = (.ok (wireBytes (cont e L S .two i)), p') ∧ PI e L S i 3 got p' := by
  have hm : ∀ j, j < S.n → parseWireMsg (p.m1.getD j []) = some (.kg1 (comm e L S j)) := by
    intro j hj
    have : p.m1.getD j [] = wireBytes (cont e L S .one j) := by
      by_cases hji : j = i
      · subst hji; exact h.own .one (by simp [Round.num])
      · exact h.recv .one j (hg j hj hji)
    rw [this, parse_cont hs .one j hj]; rfl
  have l1 : p.m1.length = S.n := h.lm .one
  obtain ⟨V, g1, g2, g3⟩ := r2fold (List.range p.m1.length) (resetOK { p with number := 2 })
  have hloop : forJ r2Step (List.range p.m1.length) (resetOK { p with number := 2 }) =
      (.ok (), { resetOK { p with number := 2 } with V := V }) := by
    rw [r2Loop_ok_iff, ← g1]
    refine ⟨?_, rfl⟩
    intro j hj
    exact ⟨_, hm j (by rw [← l1]; exact List.mem_range.mp hj)⟩
  obtain ⟨t1, t2, t3, t4, t5⟩ := h.s1 (by omega)
  have hsr := h.srid1 (by omega) (by omega)
  have key : r2Exec p = (.ok (wireBytes (cont e L S .two i)), { resetOK { p with number := 2 } with
      V := V, m2 := p.m2.set i (wireBytes (cont e L S .two i)) }) := by
    unfold r2Exec
    simp only
    rw [show (resetOK { p with number := 2 }).m1.length = p.m1.length from rfl, hloop]
    simp only [resetOK, h.index, t5, t3, t1, hsr, t4]
    rfl
  refine ⟨_, key, ?_⟩
  have h1 := h.store (j := i) (got' := got) .two (fun _ _ hh => .inl hh) hi
  constructor
  · exact h.index
  · intro rd; have := h1.lm rd; cases rd <;> exact this
  · simp only; rw [g2]; exact h.lV
  · exact h.lpay
  · exact h.lpub
  · exact h.priv
  · intro _; exact h.s1 (by omega)
  · intro _ _; exact hsr
  · intro _ j hj
    simp only
    rw [g3, if_pos ⟨by rw [List.mem_range, l1]; exact hj, by show j < p.V.length; rw [h.lV]; exact hj⟩]
    rw [show (resetOK { p with number := 2 }).m1 = p.m1 from rfl, hm j hj]
  · intro hk; omega
  · intro hk; omega
  · intro hk; omega
  · intro rd hk
    cases rd
    · exact h.own .one (by simp [Round.num])
    · simp only [Round.msgs, getD_set]
      rw [if_pos (by have := h.lm .two; simp only [Round.msgs] at this; simp only [true_and]; omega)]
    · simp [Round.num] at hk
  · intro rd j hj
    have := h1.recv rd j hj
    cases rd <;> exact this
  · exact ⟨h.idk.1, fun _ => h.idk.2 (by omega)⟩

theorem xorAll_cons (a : Bytes) (t : List Bytes) : xorAll (a :: t) = xorBytes a (xorAll t) := by
  have : xorBytes [] a = a := by rw [xorBytes_comm, xorBytes_nil]
  rw [xorAll, List.foldl_cons, this, foldl_xor]

/-- own contribution xor the others' is the common randomness -/
theorem xor_split (f : Nat → Bytes) (i : Nat) (l : List Nat) (hn : l.Nodup) (hi : i ∈ l) :
    xorBytes (f i) (xorAll ((l.filter fun j => j ≠ i).map f)) = xorAll (l.map f) := by
  induction l with
  | nil => simp at hi
  | cons a t ih =>
    obtain ⟨ha, ht⟩ := List.nodup_cons.mp hn
    by_cases hai : a = i
    · subst hai
      have : t.filter (fun j => j ≠ a) = t := by
        rw [List.filter_eq_self]; intro x hx; simp; rintro rfl; exact ha hx
      rw [List.filter_cons_of_neg (by simp), this, List.map_cons, xorAll_cons]
    · have hi' : i ∈ t := by
        rcases List.mem_cons.mp hi with rfl | h
        · exact absurd rfl hai
        · exact h
      rw [List.filter_cons_of_pos (by simpa using hai), List.map_cons, List.map_cons, xorAll_cons, xorAll_cons, ← ih ht hi',
        ← xorBytes_assoc, ← xorBytes_assoc, xorBytes_comm (f i)]

theorem PI.exec3 {i : Nat} {got : Round → Nat → Bool} {p : Party} (hs : Sizes e L S) (h : PI e L S i 3 got p)
    (hi : i < S.n) (hg : ∀ j, j < S.n → j ≠ i → got .two j = true) :
    ∃ p', r3Exec e p = (.ok (wireBytes (cont e L S .three i)), p') ∧ PI e L S i 4 got p' := by
  obtain ⟨t1, t2, t3, t4, t5⟩ := h.s1 (by omega)
  have hsr := h.srid1 (by omega) (by omega)
  have l2 : p.m2.length = S.n := h.lm .two
  have hm : ∀ j, j < S.n → j ≠ i → opening e.c (p.m2.getD j []) =
      some ⟨shareX e L S j, shareA e L S j, ssidConst, (S.rnd j).srid, (S.rnd j).u⟩ := by
    intro j hj hji
    have : p.m2.getD j [] = wireBytes (cont e L S .two j) := h.recv .two j (hg j hj hji)
    rw [this, opening_cont hs j hj]
  have hacc : ∀ j ∈ List.range p.m2.length, j ≠ (resetOK { p with number := 3 }).index →
      ∃ o, Accepts e (resetOK { p with number := 3 }) j o := by
    intro j hj hji
    have hj' : j < S.n := by rw [← l2]; exact List.mem_range.mp hj
    have hji' : j ≠ i := by rw [← h.index]; exact hji
    refine ⟨_, hm j hj' hji', t1.symm, ?_⟩
    show commitHash e.H p.ssid j _ _ _ _ = p.V.getD j []
    rw [h.s2 (by omega) j hj', t1]
    rfl
  obtain ⟨pay, pub, f1, f2, f3, f4, f5⟩ := r3fold e (List.range p.m2.length) (resetOK { p with number := 3 })
    (fun j hj hji => by obtain ⟨o, ho⟩ := hacc j hj hji; exact ⟨o, ho.1⟩)
  have hsrid : sridFold e.c (resetOK { p with number := 3 }) (List.range p.m2.length) = common S := by
    have := sridFold_eq e.c p
    refine Eq.trans (b := sridFold e.c p (List.range p.m2.length)) rfl ?_
    rw [this, hsr]
    unfold peerSrids common
    rw [← xor_split (fun j => (S.rnd j).srid) i (List.range S.n) List.nodup_range (List.mem_range.mpr hi), l2, h.index]
    congr 2
    apply List.map_congr_left
    intro j hj
    simp only [List.mem_filter, List.mem_range, decide_eq_true_eq, ne_eq] at hj
    unfold sridOf
    rw [hm j hj.1 (by simpa using hj.2)]
  have hloop : forJ (r3Step e) (List.range p.m2.length) (resetOK { p with number := 3 }) =
      (.ok (), { resetOK { p with number := 3 } with payload := pay, save := { p.save with pubXj := pub }, srid := common S }) := by
    rw [r3Loop_ok_iff]
    refine ⟨hacc, ?_⟩
    rw [f1, hsrid]; rfl
  have hpub : ∀ j, j < S.n → pub.getD j none = some (shareX e L S j) := by
    intro j hj
    rw [f5]
    by_cases hji : j = i
    · subst hji
      rw [if_neg (by rintro ⟨-, hh, -⟩; exact hh h.index.symm)]
      exact t5
    · rw [if_pos ⟨by rw [List.mem_range, l2]; exact hj, by show j ≠ p.index; rw [h.index]; exact hji,
        by show j < p.save.pubXj.length; rw [h.lpub]; exact hj⟩]
      show (opening e.c (p.m2.getD j [])).map _ = _
      rw [hm j hj hji]; rfl
  have hpay : ∀ j, j < S.n → j ≠ i → pay.getD j none =
      some ⟨shareA e L S j, ssidConst, (S.rnd j).srid, (S.rnd j).u⟩ := by
    intro j hj hji
    rw [f4, if_pos ⟨by rw [List.mem_range, l2]; exact hj, by show j ≠ p.index; rw [h.index]; exact hji,
        by show j < p.payload.length; rw [h.lpay]; exact hj⟩]
    show (opening e.c (p.m2.getD j [])).map _ = _
    rw [hm j hj hji]; rfl
  have key := r3Exec_of_loop (X := shareX e L S i) (A := shareA e L S i) (tau := (S.rnd i).tau) (x := S.x i) hloop
    (by show pub.getD p.index none = _; rw [h.index]; exact hpub i hi) t3 t2 h.priv
  have hw : wireBytes (.kg3 (intBytes (Schnorr.Prove e.c.N (S.rnd i).tau
      (challenge e p.ssid (common S) p.index (shareX e L S i) (shareA e L S i)) (S.x i))) [] []) =
      wireBytes (cont e L S .three i) := by
    rw [t1, h.index]; rfl
  simp only [resetOK] at key
  rw [hw] at key
  refine ⟨_, key, ?_⟩
  have h1 := h.store (j := i) (got' := got) .three (fun _ _ hh => .inl hh) hi
  constructor
  · exact h.index
  · intro rd; have := h1.lm rd; simp only [h.index]; cases rd <;> exact this
  · exact h.lV
  · simp only; rw [f2]; exact h.lpay
  · simp only; rw [f3]; exact h.lpub
  · exact h.priv
  · intro _; exact ⟨t1, t2, t3, t4, hpub i hi⟩
  · intro _ hk; omega
  · intro _; exact h.s2 (by omega)
  · intro _; rfl
  · intro _ j hj; exact ⟨hpub j hj, hpay j hj⟩
  · intro hk; omega
  · intro rd hk
    cases rd
    · exact h.own .one (by simp [Round.num])
    · exact h.own .two (by simp [Round.num])
    · simp only [Round.msgs, getD_set, h.index]
      rw [if_pos (by have := h.lm .three; simp only [Round.msgs] at this; simp only [true_and]; omega)]
  · intro rd j hj
    have := h1.recv rd j hj
    simp only [h.index]
    cases rd <;> exact this
  · exact ⟨h.idk.1, fun _ => h.idk.2 (by omega)⟩

theorem sumPub_all (j : Nat) (acc : G) (f : Nat → G) (l : List Nat) :
    sumPub e.c j (L.pt acc) (l.map fun k => some (L.pt (f k))) = .ok (L.pt (acc + (l.map f).sum)) := by
  induction l generalizing j acc with
  | nil => simp [sumPub]
  | cons a t ih =>
    simp only [List.map_cons, sumPub, L.add_pt (L.on_pt _) (L.on_pt _), L.val_pt, ih, List.sum_cons, add_assoc]

theorem sum_smul (l : List Nat) (f : Nat → Int) (g : G) : ((l.map f).sum) • g = (l.map fun k => f k • g).sum := by
  induction l with
  | nil => simp
  | cons a t ih => simp [add_smul, ih]

theorem PI.exec4 {i : Nat} {got : Round → Nat → Bool} {p : Party} (hs : Sizes e L S) (h : PI e L S i 4 got p)
    (hi : i < S.n) (hg : ∀ j, j < S.n → j ≠ i → got .three j = true) (hJ : ∀ sv, (e.jsonEnc sv).isSome) :
    ∃ p' out, r4Exec e p = (.ok out, p') ∧ e.jsonEnc p'.save = some out ∧
      p'.save = { p.save with eddsaPub := some (jointPub e L S) } ∧ PI e L S i 5 got p' := by
  obtain ⟨t1, t2, t3, t4, t5⟩ := h.s1 (by omega)
  have l3 : p.m3.length = S.n := h.lm .three
  have hloop : forJ (r4Step e) (List.range p.m3.length) (resetOK { p with number := 4 }) =
      (.ok (), resetOK { p with number := 4 }) := by
    rw [r4Loop_ok_iff]
    refine ⟨?_, rfl⟩
    intro j hj hji
    have hj' : j < S.n := by rw [← l3]; exact List.mem_range.mp hj
    have hji' : j ≠ i := by rw [← h.index]; exact hji
    have hmsg : p.m3.getD j [] = wireBytes (cont e L S .three j) := h.recv .three j (hg j hj' hji')
    obtain ⟨hx, hp⟩ := h.s3 (by omega) j hj'
    refine ⟨intBytes (resp e L S j), [], [], _, _, ?_, hx, hp hji', ?_⟩
    · show parseWireMsg (p.m3.getD j []) = _
      rw [hmsg, parse_cont hs .three j hj']; rfl
    · show Schnorr.Verify e.c _ (shareA e L S j) _ (challenge e p.ssid p.srid j _ (shareA e L S j)) = _
      rw [beNat_coord (resp_range j).1, t1, h.srid2 (by omega)]
      exact Schnorr.C28_prove_verify L (S.x j) (S.rnd j).tau _ _ _ (L.scalarBaseMult_pt _) (L.scalarBaseMult_pt _)
  have hpub : p.save.pubXj = (List.range S.n).map fun k => some (L.pt (S.x k • L.base)) := by
    apply List.ext_getElem
    · rw [h.lpub]; simp
    · intro j h1 h2
      have hj : j < S.n := by rw [← h.lpub]; exact h1
      have := (h.s3 (by omega) j hj).1
      rw [List.getD_eq_getElem?_getD, List.getElem?_eq_getElem h1] at this
      simpa [shareX] using this
  obtain ⟨m, hm⟩ : ∃ m, S.n = m + 1 := ⟨S.n - 1, by omega⟩
  have hpub' : p.save.pubXj = some (L.pt (S.x 0 • L.base)) ::
      ((List.range m).map (· + 1)).map fun k => some (L.pt (S.x k • L.base)) := by
    rw [hpub, hm, List.range_succ_eq_map, List.map_cons]
  have hsum : sumPub e.c 1 (L.pt (S.x 0 • L.base))
      (((List.range m).map (· + 1)).map fun k => some (L.pt (S.x k • L.base))) = .ok (jointPub e L S) := by
    rw [sumPub_all 1 _ (fun k => S.x k • L.base)]
    unfold jointPub
    rw [sum_smul, hm, List.range_succ_eq_map, List.map_cons, List.sum_cons]
  obtain ⟨out, hout⟩ := Option.isSome_iff_exists.mp (hJ { p.save with eddsaPub := some (jointPub e L S) })
  have key : r4Exec e p = (.ok out, { resetOK { p with number := 4 } with
      save := { p.save with eddsaPub := some (jointPub e L S) } }) := by
    unfold r4Exec
    simp only
    rw [show (resetOK { p with number := 4 }).m3.length = p.m3.length from rfl, hloop]
    simp only [show (resetOK { p with number := 4 }).save = p.save from rfl]
    simp only [hpub'] at hout ⊢
    simp only [hsum, hout]
  refine ⟨_, out, key, hout, rfl, ?_⟩
  constructor
  · exact h.index
  · intro rd; have := h.lm rd; cases rd <;> exact this
  · exact h.lV
  · exact h.lpay
  · exact h.lpub
  · exact h.priv
  · intro _; exact h.s1 (by omega)
  · intro _ hk; omega
  · intro _; exact h.s2 (by omega)
  · intro _; exact h.srid2 (by omega)
  · intro _; exact h.s3 (by omega)
  · intro _; rfl
  · intro rd hk; have := h.own rd (by cases rd <;> simp [Round.num]); cases rd <;> exact this
  · intro rd j hj; have := h.recv rd j hj; cases rd <;> exact this
  · exact ⟨h.idk.1, fun _ => h.idk.2 (by omega)⟩

end
end Tss.Keygen
