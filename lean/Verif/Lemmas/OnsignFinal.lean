import Verif.Lemmas.OnsignInv
/-! The final call of signing in closed form. -/
namespace Tss.Onsign
open Tss Text Wire RangeProofs
open _root_.Tss.Keygen (forJ forJ_inv)

theorem finalLoop_none (l : List Nat) (p : Party) : (forJ finalStep l (p, none)).2.2 = none := by
  refine forJ_inv (fun t : Party × Option Bytes => t.2 = none) ?_ l (p, none) rfl
  rintro ⟨t, s⟩ j hs
  simp only at hs
  subst hs
  unfold finalStep
  simp only
  split
  · rfl
  · split <;> rfl

/-- The result record of the final call. -/
def sigOf (p : Party) (r : Int) (s0 : Bytes) : SigData :=
  ⟨Ed.bigIntToEncodedBytes (some r) ++ sumOf p (List.range p.ids.length) s0, intBytes r,
    intBytes (Ed.encodedBytesToBigInt (sumOf p (List.range p.ids.length) s0)), intBytes p.m⟩

theorem finalExec_ok_iff (e : Env) (p : Party) (out : Bytes) (p' : Party) :
    finalExec e p = (.ok out, p') ↔ ∃ s0 r A, p.si = some s0 ∧ p.r = some r ∧ p.keys.eddsaPub = some A ∧
      (∀ j, j < p.ids.length → j ≠ p.index → ∃ s, sigmaOf p j = some s) ∧
      Ed.edwardsVerify e.sha512 A.x A.y (intBytes p.m) r
        (Ed.encodedBytesToBigInt (sumOf p (List.range p.ids.length) s0)) = true ∧
      e.jsonSig (sigOf p r s0) = some out ∧
      p' = { p with
        number := 4
        ok := (List.range p.ids.length).foldl (fun o j => o.set j true) (p.ok.map fun _ => false)
        data := sigOf p r s0 } := by
  unfold finalExec
  simp only
  obtain ⟨q0, hq0⟩ : ∃ q0, q0 = resetOK { p with number := 4 } := ⟨_, rfl⟩
  have e1 : q0.ids.length = p.ids.length := by rw [hq0]; rfl
  have e2 : q0.si = p.si := by rw [hq0]; rfl
  have hsig : ∀ j, sigmaOf q0 j = sigmaOf p j := fun _ => by rw [hq0]; rfl
  have hsum : ∀ s0, sumOf q0 (List.range p.ids.length) s0 = sumOf p (List.range p.ids.length) s0 := by
    intro s0; rw [hq0]; rfl
  have hidx : q0.index = p.index := by rw [hq0]; rfl
  have hokm : q0.ok = p.ok.map fun _ => false := by rw [hq0]; rfl
  rw [← hq0, e1, e2]
  obtain ⟨o, ho⟩ : ∃ o, p.si = o := ⟨_, rfl⟩
  rw [ho]
  cases o with
  | none =>
    have h := finalLoop_none (List.range p.ids.length) q0
    generalize forJ finalStep (List.range p.ids.length) (q0, none) = out at h ⊢
    rcases out with ⟨u | er | _, q, s⟩
    · simp only at h; subst h; simp
    · simp
    · simp
  | some s0 =>
    have h := finalLoop_some (List.range p.ids.length) q0 s0
    generalize forJ finalStep (List.range p.ids.length) (q0, some s0) = out at h ⊢
    simp only [hsig, hsum, hidx, List.mem_range] at h
    generalize hS : sumOf p (List.range p.ids.length) s0 = S at h
    have hso : ∀ r, sigOf p r s0 = ⟨Ed.bigIntToEncodedBytes (some r) ++ S, intBytes r,
      intBytes (Ed.encodedBytesToBigInt S), intBytes p.m⟩ := by intro r; rw [sigOf, hS]
    simp only [Option.some.injEq, exists_and_left, exists_eq_left']
    simp only [hso, hS]
    rcases out with ⟨u | er | _, q, s⟩
    · obtain ⟨h1, ok, h2, h3⟩ := (h (q, s)).mp rfl
      rw [hokm] at h3
      cases h2
      simp only
      have er : q0.r = p.r := by rw [hq0]; rfl
      have ek : q0.keys = p.keys := by rw [hq0]; rfl
      have em : q0.m = p.m := by rw [hq0]; rfl
      rw [er, ek, em]
      obtain ⟨o, ho⟩ : ∃ o, p.r = o := ⟨_, rfl⟩
      rw [ho]
      cases o with
      | none => simp
      | some r =>
        simp only
        obtain ⟨o, ho⟩ : ∃ o, p.keys.eddsaPub = o := ⟨_, rfl⟩
        rw [ho]
        cases o with
        | none => simp
        | some A =>
          simp only [Option.some.injEq, exists_eq_left']
          cases hv : Ed.edwardsVerify e.sha512 A.x A.y (intBytes p.m) r (Ed.encodedBytesToBigInt S) with
          | false => simp
          | true =>
            simp only [if_true, true_and]
            cases hj : e.jsonSig ⟨Ed.bigIntToEncodedBytes (some r) ++ S, intBytes r,
                intBytes (Ed.encodedBytesToBigInt S), intBytes p.m⟩ with
            | none => simp
            | some b =>
              simp only [Prod.mk.injEq, Res.ok.injEq, Option.some.injEq, ← h3]
              rw [hq0]
              constructor
              · rintro ⟨rfl, rfl⟩; exact ⟨h1, rfl, by congr 1⟩
              · rintro ⟨-, rfl, rfl⟩; exact ⟨rfl, by congr 1⟩
    · simp only [Prod.mk.injEq, reduceCtorEq, false_and, false_iff, not_exists, not_and]
      intro r A _ _ hg
      have := (h (_, _)).mpr ⟨hg, _, rfl, rfl⟩
      exact absurd this (by simp)
    · simp only [Prod.mk.injEq, reduceCtorEq, false_and, false_iff, not_exists, not_and]
      intro r A _ _ hg
      have := (h (_, _)).mpr ⟨hg, _, rfl, rfl⟩
      exact absurd this (by simp)

theorem sumOf_spec (p : Party) : ∀ (l : List Nat) (s0 : Bytes), s0.length = 32 ∧ leNat s0 < Ed.ord →
    (sumOf p l s0).length = 32 ∧ leNat (sumOf p l s0) < Ed.ord := by
  intro l
  induction l with
  | nil => exact fun _ h => h
  | cons j t ih =>
    intro s0 h
    rw [sumOf, List.foldl_cons]
    refine ih _ ?_
    split
    · exact h
    · have := scMulAdd_spec s0 (Ed.bigIntToEncodedBytes (some 1)) (Ed.bigIntToEncodedBytes (some (beNat ((sigmaOf p j).getD []))))
      exact ⟨this.1, this.2.1⟩

theorem encodedBytes_roundtrip (b : Bytes) (h : b.length = 32) :
    Ed.bigIntToEncodedBytes (some (Ed.encodedBytesToBigInt b)) = b := by
  obtain ⟨h1, h2, h3⟩ := encodedBytes_range b h
  apply leNat_inj
  · rw [Ed.bigIntToEncodedBytes_length, h]
  · rw [Ed.leNat_bigIntToEncodedBytes (by rw [h3, Int.natAbs_natCast]; exact_mod_cast h3 ▸ h2), h3, Int.natAbs_natCast]

/-! ### rounds 2 and 3 -/

theorem r2Prove_shape (e : Env) (draws : Nat → Draws) (k rho K n : Int) (Ri G : ECPoint) (p : Party) (j : Nat) :
    ∃ a b, (r2Prove e draws k rho K n Ri G p j).2 = { p with send2 := a, m2 := b } := by
  unfold r2Prove
  generalize Ed.curve = curve
  split
  · exact ⟨_, _, rfl⟩
  · split
    · exact ⟨_, _, rfl⟩
    · exact ⟨_, _, rfl⟩
    · split
      · exact ⟨_, _, rfl⟩
      · exact ⟨_, _, rfl⟩
      · exact ⟨_, _, rfl⟩

/-- The shape of a successful second round. -/
theorem r2Exec_ok_iff (e : Env) (draws : Nat → Draws) (p p' : Party) :
    r2Exec e draws p = (.ok (), p') ↔ ∃ p2 k G Ri rho K n,
      forJ (r2Verify e) (List.range p.m11.length) (resetOK { p with number := 2 }) = (.ok (), p2) ∧ p2.k = some k ∧
      ECPoint.new Ed.curve Ed.curve.Gx Ed.curve.Gy = some G ∧ ECPoint.scalarBaseMult Ed.curve k = some Ri ∧
      p2.rho = some rho ∧ p2.kc.getD p2.index none = some K ∧ p2.keys.paillierPKs.getD p2.index none = some n ∧
      forJ (r2Prove e draws k rho K n Ri G) (List.range p2.ids.length) p2 = (.ok (), p') := by
  unfold r2Exec
  simp only
  have e1 : (resetOK { p with number := 2 }).m11.length = p.m11.length := rfl
  rw [e1]
  generalize forJ (r2Verify e) (List.range p.m11.length) (resetOK { p with number := 2 }) = out
  generalize r2Prove e = prove
  generalize Ed.curve = curve
  rcases out with ⟨u | er | _, p2⟩
  · simp only [Prod.mk.injEq, true_and]
    cases hk : p2.k with
    | none => simp [hk]
    | some k =>
      simp only
      cases hG : ECPoint.new curve curve.Gx curve.Gy with
      | none => simp
      | some G =>
        simp only
        cases hR : ECPoint.scalarBaseMult curve k with
        | none => simp [hk, hR]
        | some Ri =>
          cases hr : p2.rho with
          | none => simp [hr]
          | some rho =>
            cases hK : p2.kc.getD p2.index none with
            | none => simp [-List.getD_eq_getElem?_getD, hK]
            | some K =>
              cases hn : p2.keys.paillierPKs.getD p2.index none with
              | none => simp [-List.getD_eq_getElem?_getD, hn]
              | some n =>
                simp only
                constructor
                · intro h; exact ⟨p2, k, G, Ri, rho, K, n, rfl, hk, rfl, hR, hr, hK, hn, h⟩
                · rintro ⟨p2', k', G', Ri', rho', K', n', rfl, h1, h2, h3, h4, h5, h6, h7⟩
                  rw [hk] at h1; cases h1
                  cases h2
                  rw [hR] at h3; cases h3
                  rw [hr] at h4; cases h4
                  rw [hK] at h5; cases h5
                  rw [hn] at h6; cases h6
                  exact h7
  · simp
  · simp

/-- A loop stops at the first iteration that does not succeed. -/
theorem forJ_first {σ ε : Type} {step : σ → Nat → Res ε Unit × σ} : ∀ (pre : List Nat) (j : Nat) (t : List Nat) (s s1 : σ),
    forJ step pre s = (.ok (), s1) → (step s1 j).1 ≠ .ok () → forJ step (pre ++ j :: t) s = step s1 j
  | [], j, t, s, s1, h, hj => by
    rw [Keygen.forJ_nil, Prod.mk.injEq] at h
    obtain ⟨-, rfl⟩ := h
    rw [List.nil_append]
    simp only [forJ]
    generalize step s j = q at hj ⊢
    rcases q with ⟨u | er | _, q⟩
    · exact absurd rfl hj
    · rfl
    · rfl
  | i :: pre, j, t, s, s1, h, hj => by
    obtain ⟨s2, h1, h2⟩ := Keygen.forJ_cons_ok.mp h
    rw [List.cons_append]
    simp only [forJ, h1]
    exact forJ_first pre j t s2 s1 h2 hj

theorem r3Exec_ok_loop {e : Env} {zs : Nat → Int} {p : Party} {w : Bytes} (h : (r3Exec e zs p).1 = .ok w) :
    ∃ G E, ECPoint.new Ed.curve Ed.curve.Gx Ed.curve.Gy = some G ∧
      forJ (r3Step e zs G (resetOK { p with number := 3 })) (List.range p.m2.length)
        (Ed.geScalarMultBase (Ed.bigIntToEncodedBytes p.k)) = (.ok (), E) := by
  unfold r3Exec at h
  simp only at h
  have e1 : (resetOK { p with number := 3 }).m2.length = p.m2.length := rfl
  have e2 : (resetOK { p with number := 3 }).k = p.k := rfl
  rw [e1, e2] at h
  generalize r3Step e zs = step at h ⊢
  generalize Ed.geScalarMultBase (Ed.bigIntToEncodedBytes p.k) = E0 at h ⊢
  generalize ECPoint.new Ed.curve Ed.curve.Gx Ed.curve.Gy = oG at h ⊢
  cases oG with
  | none => simp at h
  | some G =>
    simp only at h
    generalize hout : forJ (step G (resetOK { p with number := 3 })) (List.range p.m2.length) E0 = out at h
    rcases out with ⟨u | er | _, E⟩
    · exact ⟨G, E, rfl, hout⟩
    · simp at h
    · simp at h

theorem r3Exec_loop_err {e : Env} {zs : Nat → Int} {p : Party} {G : ECPoint} {er : Err} {E : Ed.Ext}
    (hG : ECPoint.new Ed.curve Ed.curve.Gx Ed.curve.Gy = some G)
    (h : forJ (r3Step e zs G (resetOK { p with number := 3 })) (List.range p.m2.length)
        (Ed.geScalarMultBase (Ed.bigIntToEncodedBytes p.k)) = (.err er, E)) : (r3Exec e zs p).1 = .err er := by
  unfold r3Exec
  simp only
  have e1 : (resetOK { p with number := 3 }).m2.length = p.m2.length := rfl
  have e2 : (resetOK { p with number := 3 }).k = p.k := rfl
  rw [e1, e2, hG]
  simp only
  rw [h]

theorem r3Loop_of {e : Env} {zs : Nat → Int} {G : ECPoint} {p : Party} {l : List Nat}
    (h : ∀ i ∈ l, i ≠ p.index → ∃ R R8, Good3 e G p i R ∧ ECPoint.eightInvEight Ed.curve R = .ok (some R8)) :
    ∀ E : Ed.Ext, ∃ E', forJ (r3Step e zs G p) l E = (.ok (), E') := by
  induction l with
  | nil => intro E; exact ⟨E, rfl⟩
  | cons j t ih =>
    intro E
    have hs : ∃ E1, r3Step e zs G p E j = (.ok (), E1) := by
      by_cases hj : j = p.index
      · exact ⟨E, (r3Step_ok_iff _ _ _ _ _ _ _).mpr (.inl ⟨hj, rfl⟩)⟩
      · obtain ⟨R, R8, h1, h2⟩ := h j (by simp) hj
        exact ⟨_, (r3Step_ok_iff _ _ _ _ _ _ _).mpr (.inr ⟨hj, R, R8, h1, h2, rfl⟩)⟩
    obtain ⟨E1, hE1⟩ := hs
    obtain ⟨E2, hE2⟩ := ih (fun i hi => h i (by simp [hi])) E1
    exact ⟨E2, Keygen.forJ_cons_ok.mpr ⟨E1, hE1, hE2⟩⟩

theorem range_split {n j : Nat} (h : j < n) : ∃ t, List.range n = List.range j ++ j :: t := by
  refine ⟨(List.range n).drop (j + 1), ?_⟩
  have h1 : (List.range n).take j = List.range j := by rw [List.take_range]; congr; omega
  rw [← h1]
  conv => lhs; rw [← List.take_append_drop j (List.range n)]
  rw [List.drop_eq_getElem_cons (by simpa using h)]
  simp

end Tss.Onsign
