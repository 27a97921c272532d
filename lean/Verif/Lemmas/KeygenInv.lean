import Verif.Lemmas.KeygenRounds
/-! The invariant of parties reachable through the exported calls. -/
namespace Tss.Keygen
open Tss Text Wire

/-- What holds of every party object reachable through the API. -/
structure PInv (e : Env) (p : Party) : Prop where
  idx : p.index < p.ids.length
  lpub : p.save.pubXj.length = p.ids.length
  lpay : p.payload.length = p.ids.length
  lV : p.V.length = p.ids.length
  lm1 : p.m1.length = p.ids.length
  lm2 : p.m2.length = p.ids.length
  lm3 : p.m3.length = p.ids.length
  lok : p.ok.length = p.ids.length
  priv : ∃ x : Int, 0 ≤ x ∧ p.save.privXi = some x
  pub_on : ∀ X, some X ∈ p.save.pubXj → e.c.On X
  pay_on : ∀ pl, some pl ∈ p.payload → e.c.On pl.commitedA

theorem new_on {c : Curve} {x y : Int} {p : ECPoint} (h : ECPoint.new c x y = some p) : c.On p := by
  unfold ECPoint.new at h
  split at h
  · cases h; assumption
  · cases h

theorem scalarBaseMult_on {c : Curve} {k : Int} {p : ECPoint} (h : ECPoint.scalarBaseMult c k = some p) : c.On p :=
  new_on h

theorem PInv.of_eq {e : Env} {p q : Party} (h : PInv e p) (h1 : q.index = p.index) (h2 : q.ids = p.ids)
    (h3 : q.save = p.save) (h4 : q.payload = p.payload) (h5 : q.V.length = p.V.length)
    (h6 : q.m1.length = p.m1.length) (h7 : q.m2.length = p.m2.length) (h8 : q.m3.length = p.m3.length)
    (h9 : q.ok.length = p.ok.length) : PInv e q where
  idx := by rw [h1, h2]; exact h.idx
  lpub := by rw [h2, h3]; exact h.lpub
  lpay := by rw [h2, h4]; exact h.lpay
  lV := by rw [h2, h5]; exact h.lV
  lm1 := by rw [h2, h6]; exact h.lm1
  lm2 := by rw [h2, h7]; exact h.lm2
  lm3 := by rw [h2, h8]; exact h.lm3
  lok := by rw [h2, h9]; exact h.lok
  priv := by rw [h3]; exact h.priv
  pub_on := by rw [h3]; exact h.pub_on
  pay_on := by rw [h4]; exact h.pay_on

theorem mem_set_sub {α : Type} {l : List α} {i : Nat} {a b : α} (h : b ∈ l.set i a) : b = a ∨ b ∈ l := by
  rcases List.mem_or_eq_of_mem_set h with h | h
  · exact .inr h
  · exact .inl h

theorem PInv.setPub {e : Env} {p : Party} (h : PInv e p) (j : Nat) (X : Option ECPoint)
    (hX : ∀ Y, X = some Y → e.c.On Y) :
    PInv e { p with save := { p.save with pubXj := p.save.pubXj.set j X } } where
  idx := h.idx
  lpub := by simpa using h.lpub
  lpay := h.lpay
  lV := h.lV
  lm1 := h.lm1
  lm2 := h.lm2
  lm3 := h.lm3
  lok := h.lok
  priv := h.priv
  pub_on := by
    intro Y hY
    rcases mem_set_sub hY with hY | hY
    · exact hX Y hY.symm
    · exact h.pub_on Y hY
  pay_on := h.pay_on

theorem PInv.setPay {e : Env} {p : Party} (h : PInv e p) (j : Nat) (X : Option Payload)
    (hX : ∀ Y, X = some Y → e.c.On Y.commitedA) : PInv e { p with payload := p.payload.set j X } where
  idx := h.idx
  lpub := h.lpub
  lpay := by simpa using h.lpay
  lV := h.lV
  lm1 := h.lm1
  lm2 := h.lm2
  lm3 := h.lm3
  lok := h.lok
  priv := h.priv
  pub_on := h.pub_on
  pay_on := by
    intro Y hY
    rcases mem_set_sub hY with hY | hY
    · exact hX Y hY.symm
    · exact h.pay_on Y hY

theorem PInv.r1 {e : Env} {p : Party} (h : PInv e p) (rnd : Rand1) : PInv e (r1Exec e rnd p).2 := by
  obtain ⟨x, hx0, hx⟩ := h.priv
  have key : ∀ (m : List Bytes), m.length = p.m1.length →
      PInv e { resetOK { p with number := 1 } with
        ssid := ssidConst
        tau := some rnd.tau
        commitedA := ECPoint.scalarBaseMult e.c rnd.tau
        u := rnd.u
        srid := rnd.srid
        m1 := m
        save := { p.save with
          privXi := some x
          pubXj := p.save.pubXj.set p.index (ECPoint.scalarBaseMult e.c x)
          ks := (PartyID.Keys p.ids).map some
          shareID := (PartyID.Keys p.ids)[p.index]? } } := by
    intro m hm
    have h2 := h.setPub p.index (ECPoint.scalarBaseMult e.c x) (fun Y hY => scalarBaseMult_on hY)
    constructor
    · exact h.idx
    · exact h2.lpub
    · exact h.lpay
    · exact h.lV
    · exact hm.trans h.lm1
    · exact h.lm2
    · exact h.lm3
    · simpa [resetOK] using h.lok
    · exact ⟨x, hx0, rfl⟩
    · exact h2.pub_on
    · exact h.pay_on
  unfold r1Exec
  simp only [resetOK, hx, Option.getD_some]
  split
  · exact key _ (by simp)
  · exact key _ rfl

theorem PInv.r2 {e : Env} {p : Party} (h : PInv e p) : PInv e (r2Exec p).2 := by
  have h0 : PInv e (resetOK { p with number := 2 }) :=
    h.of_eq rfl rfl rfl rfl rfl rfl rfl rfl (by simp [resetOK])
  have key := forJ_inv (step := r2Step) (PInv e) (by
    intro s j hs
    unfold r2Step
    split
    · exact hs
    · exact hs.of_eq rfl rfl rfl rfl (by simp) rfl rfl rfl rfl
    · exact hs) (List.range (resetOK { p with number := 2 }).m1.length) _ h0
  unfold r2Exec
  simp only
  cases hr : forJ r2Step (List.range (resetOK { p with number := 2 }).m1.length) (resetOK { p with number := 2 }) with
  | mk r s1 =>
    rw [hr] at key
    cases r <;> simp only
    · split
      · exact key.of_eq rfl rfl rfl rfl rfl rfl (by simp) rfl rfl
      · exact key
    · exact key
    · exact key

theorem PInv.r3Step {e : Env} {s : Party} (hs : PInv e s) (j : Nat) : PInv e (r3Step e s j).2 := by
  unfold Keygen.r3Step
  by_cases hj : j = s.index
  · simp only [hj, if_true]; exact hs
  simp only [hj, if_false]
  cases parseWireMsg (s.m2.getD j []) with
  | none => exact hs
  | some c =>
    cases c with
    | kg2 ssid srid xx xy ax ay u pn ps pt =>
      simp only
      cases hA : ECPoint.new e.c (beNat ax) (beNat ay) with
      | none => exact hs.setPay j none (by simp)
      | some A =>
        have hs1 := hs.setPay j (some ⟨A, ssid, srid, u⟩) (fun Y hY => by cases hY; exact new_on hA)
        simp only
        cases hX : ECPoint.new e.c (beNat xx) (beNat xy) with
        | none => exact hs1.setPub j none (by simp)
        | some X =>
          have hs2 := hs1.setPub j (some X) (fun Y hY => by cases hY; exact new_on hX)
          simp only
          by_cases h1 : ssid = s.ssid
          · by_cases h2 : commitHash e.H s.ssid j srid X A u = s.V.getD j []
            · simp only [h1, h2, ne_eq, not_true_eq_false, if_false]
              rw [h1] at hs2
              exact hs2.of_eq rfl rfl rfl rfl rfl rfl rfl rfl rfl
            · simp only [h1, h2, ne_eq, not_true_eq_false, if_false, not_false_eq_true, if_true]
              rw [h1] at hs2
              exact hs2
          · simp only [h1, ne_eq, not_false_eq_true, if_true]
            exact hs2
    | _ => exact hs

theorem PInv.r3 {e : Env} {p : Party} (h : PInv e p) : PInv e (r3Exec e p).2 := by
  have h0 : PInv e (resetOK { p with number := 3 }) :=
    h.of_eq rfl rfl rfl rfl rfl rfl rfl rfl (by simp [resetOK])
  have key := forJ_inv (step := Keygen.r3Step e) (PInv e) (fun s j hs => hs.r3Step j)
    (List.range (resetOK { p with number := 3 }).m2.length) _ h0
  unfold r3Exec
  simp only
  cases hr : forJ (Keygen.r3Step e) (List.range (resetOK { p with number := 3 }).m2.length) (resetOK { p with number := 3 }) with
  | mk r s1 =>
    rw [hr] at key
    cases r <;> simp only
    · split
      · exact key.of_eq rfl rfl rfl rfl rfl rfl rfl (by simp) rfl
      · exact key
    · exact key
    · exact key

theorem PInv.r4 {e : Env} {p : Party} (h : PInv e p) : PInv e (r4Exec e p).2 := by
  have h0 : PInv e (resetOK { p with number := 4 }) :=
    h.of_eq rfl rfl rfl rfl rfl rfl rfl rfl (by simp [resetOK])
  have key := forJ_inv (step := r4Step e) (PInv e) (fun s j hs => by rw [r4Step_const]; exact hs)
    (List.range (resetOK { p with number := 4 }).m3.length) _ h0
  unfold r4Exec
  simp only
  cases hr : forJ (r4Step e) (List.range (resetOK { p with number := 4 }).m3.length) (resetOK { p with number := 4 }) with
  | mk r s1 =>
    rw [hr] at key
    have k2 : ∀ s, PInv e { s1 with save := { s1.save with eddsaPub := s } } := fun s =>
      ⟨key.idx, key.lpub, key.lpay, key.lV, key.lm1, key.lm2, key.lm3, key.lok, key.priv, key.pub_on, key.pay_on⟩
    cases r <;> simp only
    · split
      · split
        · split
          · exact k2 _
          · exact k2 _
        · exact key
        · exact key
      · exact key
    · exact key
    · exact key

theorem PInv.fresh (e : Env) (n idx : Nat) (ids : List PartyID) (x : Nat) (hi : idx < ids.length) (hl : ids.length = n) :
    PInv e (freshParty n idx ids x) where
  idx := hi
  lpub := by simp [freshParty, newSaveData, hl]
  lpay := by simp [freshParty, hl]
  lV := by simp [freshParty, hl]
  lm1 := by simp [freshParty, hl]
  lm2 := by simp [freshParty, hl]
  lm3 := by simp [freshParty, hl]
  lok := by simp [freshParty, hl]
  priv := ⟨x, by omega, rfl⟩
  pub_on := by intro X hX; simp [freshParty, newSaveData] at hX
  pay_on := by intro X hX; simp [freshParty] at hX

/-- A per-party property kept by a call body is kept by the registry call. -/
theorem withParty_inv {α : Type} (P : Party → Prop) {r : Reg} (key : Bytes) (f : Party → Res Err α × Party)
    (hr : ∀ k p, r k = some p → P p) (hf : ∀ p, P p → P (f p).2) :
    ∀ k p, (withParty r key f).2 k = some p → P p := by
  intro k p hk
  unfold withParty at hk
  cases hr0 : r key with
  | none => rw [hr0] at hk; exact hr k p hk
  | some q =>
    rw [hr0] at hk
    simp only [Reg.set] at hk
    by_cases hkk : k = key
    · simp only [hkk, if_true, Option.some.injEq] at hk
      subst hk; exact hf q (hr key q hr0)
    · simp only [hkk, if_false] at hk
      exact hr k p hk

theorem new_inv (P : Party → Prop) {r : Reg} (key : Bytes) (idx cnt : Int) (pIDs : List Bytes) (root : Bytes)
    (hr : ∀ k p, r k = some p → P p)
    (hf : ∀ (n i : Nat) ids (x : Nat), i < ids.length → ids.length = n → P (freshParty n i ids x)) :
    ∀ k p, (NewLocalParty r key idx cnt pIDs root).2 k = some p → P p := by
  intro k p hk
  unfold NewLocalParty at hk
  split at hk
  · exact hr k p hk
  · simp only at hk
    cases hb : buildIds pIDs 0 cnt.toNat with
    | none => rw [hb] at hk; exact hr k p hk
    | some uIds =>
      have hl : uIds.length = cnt.toNat := ((buildIds_eq_some _ _ _ _).mp hb).1
      rw [hb] at hk
      simp only at hk
      split at hk
      · next hi =>
        cases hx : hexDecode root with
        | none => rw [hx] at hk; exact hr k p hk
        | some b =>
          rw [hx] at hk
          simp only [Reg.set] at hk
          by_cases hkk : k = key
          · simp only [hkk, if_true, Option.some.injEq] at hk
            subst hk
            exact hf _ _ _ _ (by omega) (by rw [sort_length, hl])
          · simp only [hkk, if_false] at hk
            exact hr k p hk
      · exact hr k p hk

theorem accept_state (kind : Kind) (slots : Party → List Bytes) (put : Party → List Bytes → Party) (frm : Int)
    (msg : Bytes) (p : Party) : (accept kind slots put frm msg p).2 = p ∨
      ∃ b, b64Decode msg = some b ∧ 0 ≤ frm ∧ frm < (slots p).length ∧
        (accept kind slots put frm msg p).2 = put p ((slots p).set frm.toNat b) := by
  unfold accept
  cases b64Decode msg with
  | none => left; rfl
  | some b =>
    simp only
    split
    · next h =>
      right
      refine ⟨b, rfl, h.1, h.2, ?_⟩
      split
      · rfl
      · split <;> rfl
    · left; rfl

/-- Every registered party satisfies the invariant, after every history of calls. -/
theorem reach_inv (e : Env) {r : Reg} (h : Reach e r) : ∀ k p, r k = some p → PInv e p := by
  induction h with
  | init => intro k p hk; cases hk
  | @step r op _ ih =>
    cases op with
    | new key idx cnt pIDs root =>
      exact new_inv (PInv e) key idx cnt pIDs root ih (fun n i ids x hi hl => PInv.fresh e n i ids x hi hl)
    | saveChain key codes =>
      refine withParty_inv (PInv e) key _ ih (fun p hp => ?_)
      simp only
      split
      · exact hp
      · split
        · exact ⟨hp.idx, hp.lpub, hp.lpay, hp.lV, hp.lm1, hp.lm2, hp.lm3, hp.lok, hp.priv, hp.pub_on, hp.pay_on⟩
        · exact hp
        · exact hp
    | remove key =>
      intro k p hk
      simp only [Op.run, RemoveParty] at hk
      split at hk
      · exact ih k p hk
      · simp only [Reg.set] at hk
        split at hk
        · cases hk
        · exact ih k p hk
    | exec1 key rnd => exact withParty_inv (PInv e) key _ ih (fun p hp => hp.r1 rnd)
    | exec2 key => exact withParty_inv (PInv e) key _ ih (fun p hp => hp.r2)
    | exec3 key => exact withParty_inv (PInv e) key _ ih (fun p hp => hp.r3)
    | exec4 key => exact withParty_inv (PInv e) key _ ih (fun p hp => hp.r4)
    | acc rd key frm msg =>
      cases rd
      all_goals
        refine withParty_inv (PInv e) key _ ih (fun p hp => ?_)
        rcases accept_state _ _ _ frm msg p with h | ⟨b, -, -, -, h⟩
        · rw [h]; exact hp
        · rw [h]
          first
            | exact hp.of_eq rfl rfl rfl rfl rfl (by simp) rfl rfl rfl
            | exact hp.of_eq rfl rfl rfl rfl rfl rfl (by simp) rfl rfl
            | exact hp.of_eq rfl rfl rfl rfl rfl rfl rfl (by simp) rfl
    | fin rd key =>
      cases rd
      all_goals exact withParty_inv (PInv e) key _ ih (fun p hp => hp)

end Tss.Keygen
