import Verif.Props.NonceReuse
import Verif.Props.Blame
/-! C82: whom signing blames. -/
namespace Tss.Onsign
open Tss Text Wire RangeProofs
open _root_.Tss.Keygen (forJ forJ_cons_ok getD_set forJ_err)

/-! ### an honest client -/

/-- The calls that only store or fetch messages or ask whether all have arrived. -/
def spec.quiet : Op → Bool
  | .get1 _ _ => true
  | .acc1 _ _ _ => true
  | .fin1 _ => true
  | .get2 _ _ => true
  | .acc2 _ _ _ => true
  | .fin2 _ => true
  | .acc3 _ _ _ => true
  | .fin3 _ => true
  | _ => false

/-- Any calls, except that the party under `key` is not created, removed or sent into a round. -/
def spec.Quiet (key : Bytes) (ops : List Op) : Prop := ∀ op ∈ ops, op.key = key → spec.quiet op = true

/-- The client of the party under `key` has run round 1 with the draws `rnd`; the call returned `w1`. Since then, until
registry `r` was reached, any calls were made except that this party was not created, removed or sent into a round. -/
def spec.Signed1 (e : Env) (key : Bytes) (rnd : Rand1) (w1 : Bytes) (r : Reg) : Prop :=
  ∃ (r0 r1 : Reg) (ops : List Op), Reach e r0 ∧ OnSignRound1Exec e rnd r0 key = (.ok w1, r1) ∧ spec.Quiet key ops ∧
    runOps e ops r1 = r

/-- Then it has run round 2 once, with the round-1 broadcasts `M1` at hand. -/
def spec.Signed2 (e : Env) (key : Bytes) (rnd : Rand1) (w1 : Bytes) (M1 : List Bytes) (r : Reg) : Prop :=
  ∃ (draws : Nat → Draws) (r1 r2 : Reg) (ops : List Op) (q : Party), spec.Signed1 e key rnd w1 r1 ∧ r1 key = some q ∧ q.m11 = M1 ∧
    OnsignRound2Exec e draws r1 key = (.ok (), r2) ∧ spec.Quiet key ops ∧ runOps e ops r2 = r

/-- The party whose message an error declares bad. (`logSelf`, `encProof` and `encrypt` also print an index, but say that
the own message could not be made.) -/
def spec.blamed : Err → Option Nat
  | .unmarshalEnc j => some j
  | .verifyEnc j => some j
  | .unmarshalLog j => some j
  | .unmarshalR j => some j
  | .verifyLog j => some j
  | _ => none

/-! ### what quiet calls leave alone -/

/-- everything but the stored messages -/
def KeepsAll (p q : Party) : Prop := ∃ a b c d, q = { p with m11 := a, m12 := b, m2 := c, m3 := d }

theorem KeepsAll.refl' {p : Party} : KeepsAll p p := ⟨_, _, _, _, rfl⟩

theorem KeepsAll.trans {p q s : Party} (h : KeepsAll p q) (g : KeepsAll q s) : KeepsAll p s := by
  obtain ⟨a, b, c, d, rfl⟩ := h
  obtain ⟨a', b', c', d', rfl⟩ := g
  exact ⟨a', b', c', d', rfl⟩

theorem run_quiet (e : Env) (op : Op) (r : Reg) (key : Bytes) (p : Party) (h : r key = some p)
    (hk : op.key = key → spec.quiet op = true) : ∃ q, (op.run e r).2 key = some q ∧ KeepsAll p q := by
  by_cases hop : op.key = key
  · specialize hk hop
    have wp : ∀ {α : Type} (nf : Err) (f : Party → Res Err α × Party), KeepsAll p (f p).2 →
        ∃ q, (withParty nf r key f).2 key = some q ∧ KeepsAll p q := by
      intro α nf f hf
      rw [withParty_some nf f h]
      exact ⟨_, set_same _ _ _, hf⟩
    have ha : ∀ kind wrong slots (put : Party → List Bytes → Party), (∀ l, KeepsAll p (put p l)) → ∀ f m,
        KeepsAll p (accept kind wrong slots put f m p).2 := by
      intro kind wrong slots put hput f m
      unfold accept
      split
      · exact .refl'
      · split
        · simp only
          split
          · exact hput _
          · split <;> exact hput _
        · exact .refl'
    cases op with
    | new _ a => cases hk
    | remove _ => cases hk
    | exec1 _ rnd => cases hk
    | exec2 _ d => cases hk
    | exec3 _ z => cases hk
    | final _ => cases hk
    | get1 _ t => cases hop; exact wp _ _ .refl'
    | get2 _ t => cases hop; exact wp _ _ .refl'
    | fin1 _ => cases hop; exact wp _ _ .refl'
    | fin2 _ => cases hop; exact wp _ _ .refl'
    | fin3 _ => cases hop; exact wp _ _ .refl'
    | acc1 _ f m =>
      cases hop
      refine wp _ _ ?_
      unfold r1Accept
      split
      · exact .refl'
      · split
        · exact .refl'
        · split
          · exact ⟨_, _, _, _, rfl⟩
          · exact .refl'
        · split
          · exact ⟨_, _, _, _, rfl⟩
          · exact .refl'
        · exact .refl'
    | acc2 _ f m => cases hop; exact wp _ _ (ha _ _ _ _ (fun l => ⟨_, _, _, _, rfl⟩) f m)
    | acc3 _ f m => cases hop; exact wp _ _ (ha _ _ _ _ (fun l => ⟨_, _, _, _, rfl⟩) f m)
  · exact ⟨p, (run_other e op r key (fun h => hop h.symm)).trans h, .refl'⟩

theorem runOps_quiet (e : Env) (key : Bytes) : ∀ (ops : List Op) (r : Reg) (p : Party), r key = some p →
    spec.Quiet key ops → ∃ q, runOps e ops r key = some q ∧ KeepsAll p q
  | [], _, p, h, _ => ⟨p, h, .refl'⟩
  | op :: t, r, p, h, ha => by
    obtain ⟨q, h1, h2⟩ := run_quiet e op r key p h (ha op (by simp))
    obtain ⟨s, h3, h4⟩ := runOps_quiet e key t _ q h1 fun o ho => ha o (by simp [ho])
    exact ⟨s, h3, h2.trans h4⟩

/-! ### messages that are not absurdly long can be read -/

theorem parse_small (c : Content) (h : (wireBytes c).length < 2 ^ 64) (hc : ∀ b ∈ c.parts, b.length ≤ c.marshal.length) :
    parseWireMsg (wireBytes c) = some c := by
  have h1 : c.marshal.length ≤ (wireBytes c).length := by
    unfold wireBytes
    have := encField_length_ge 2 c.marshal
    simp only [List.length_append]
    omega
  apply parse_wireBytes
  · intro b hb
    have := hc b hb
    omega
  · omega

theorem parse_sg1a {b : Bytes} (h : (wireBytes (.sg1a b)).length < 2 ^ 64) : parseWireMsg (wireBytes (.sg1a b)) = some (.sg1a b) := by
  refine parse_small _ h ?_
  simp only [Content.parts, List.mem_singleton, forall_eq, Content.marshal]
  exact encField_length_ge 1 b

theorem parse_sg1b {b : Bytes} (h : (wireBytes (.sg1b b)).length < 2 ^ 64) : parseWireMsg (wireBytes (.sg1b b)) = some (.sg1b b) := by
  refine parse_small _ h ?_
  simp only [Content.parts, List.mem_singleton, forall_eq, Content.marshal]
  exact encField_length_ge 1 b

theorem parse_sg2 {x y b : Bytes} (h : (wireBytes (.sg2 x y b)).length < 2 ^ 64) :
    parseWireMsg (wireBytes (.sg2 x y b)) = some (.sg2 x y b) := by
  refine parse_small _ h ?_
  simp only [Content.parts, List.mem_cons, List.not_mem_nil, or_false, Content.marshal, List.length_append]
  have h1 := encField_length_ge 1 x
  have h2 := encField_length_ge 2 y
  have h3 := encField_length_ge 3 b
  rintro c (rfl | rfl | rfl) <;> omega

theorem wire_ge (c : Content) : c.marshal.length ≤ (wireBytes c).length := by
  unfold wireBytes
  have := encField_length_ge 2 c.marshal
  simp only [List.length_append]
  omega

/-! ### the loops -/

/-- what the steps of a successful loop establish -/
theorem forJ_post {σ ε : Type} {step : σ → Nat → Res ε Unit × σ} (I : σ → Prop) (Q : Nat → σ → Prop)
    (h : ∀ s j s', I s → step s j = (.ok (), s') → I s' ∧ Q j s' ∧ ∀ i, i ≠ j → Q i s → Q i s') :
    ∀ (l : List Nat) (s s' : σ), I s → forJ step l s = (.ok (), s') → I s' ∧ (∀ j ∈ l, Q j s') ∧ ∀ j, Q j s → Q j s'
  | [], s, s', hs, hf => by
    simp only [forJ, Prod.mk.injEq, true_and] at hf
    subst hf
    exact ⟨hs, by simp, fun _ h => h⟩
  | j :: t, s, s', hs, hf => by
    obtain ⟨s1, h1, h2⟩ := forJ_cons_ok.mp hf
    obtain ⟨a, b, c⟩ := h s j s1 hs h1
    obtain ⟨a', b', c'⟩ := forJ_post I Q h t s1 s' a h2
    refine ⟨a', ?_, ?_⟩
    · intro i hi
      rcases List.mem_cons.mp hi with rfl | hi
      · exact c' _ b
      · exact b' i hi
    · intro i hi
      by_cases hij : i = j
      · subst hij; exact c' _ b
      · exact c' _ (c i hij hi)

/-- what party `i` with Paillier modulus `n` and ciphertext `K` has for the receiver `j` after round 1 -/
def Sent1 (e : Env) (rnd : Rand1) (n K : Int) (p : Party) (j : Nat) (q : Party) : Prop :=
  ∃ ped msg, p.keys.ringPedersenPKs.getD j none = some ped ∧
    NewEncryptRangeMessage e.Hb proofParameter (context ssidConst p.index) K n rnd.k rnd.rho ped (rnd.enc j) = .ok msg ∧
    q.send12.getD j [] = wireBytes (.sg1b (encMarshal msg))

theorem r1Exec_all {e : Env} {rnd : Rand1} {p p' : Party} {w : Bytes} (hi : PInv p) (h : r1Exec e rnd p = (.ok w, p')) :
    ∃ n K, p.keys.paillierPKs.getD p.index none = some n ∧ 0 ≤ rnd.k ∧ rnd.k < n ∧ Paillier.cipher n rnd.k rnd.rho = some K ∧
      w = wireBytes (.sg1a (intBytes K)) ∧ p'.index = p.index ∧ p'.ids = p.ids ∧ p'.ssid = ssidConst ∧ p'.k = some rnd.k ∧
      p'.rho = some rnd.rho ∧ p'.kc.getD p.index none = some K ∧ (∃ ep, p'.keys = { p.keys with eddsaPub := ep }) ∧
      ∀ j, j < p.ids.length → Sent1 e rnd n K p j p' := by
  unfold r1Exec r1Body at h
  simp only [resetOK] at h
  split at h
  next X0 t hX =>
    split at h
    · cases h
    · cases h
    next s hs =>
      unfold r1Encrypt at h
      simp only at h
      split at h
      · cases h
      next n hn =>
        by_cases hk : rnd.k < 0 ∨ ¬ rnd.k < n
        · rw [if_pos hk] at h; cases h
        rw [if_neg hk] at h
        push Not at hk
        cases hc : Paillier.cipher n rnd.k rnd.rho with
        | none => rw [hc] at h; cases h
        | some K =>
          rw [hc] at h
          simp only at h
          unfold r1Proofs at h
          simp only at h
          obtain ⟨q0, hq0⟩ : ∃ q0 : Party, q0 = { p with
              number := 1
              ok := p.ok.map fun _ => false
              ssid := ssidConst
              keys := { p.keys with eddsaPub := some s }
              k := some rnd.k
              rho := some rnd.rho
              kc := p.kc.set p.index (some K)
              m11 := p.m11.set p.index (wireBytes (.sg1a (intBytes K))) } := ⟨_, rfl⟩
          rw [← hq0] at h
          cases hf : forJ (r1Step e rnd n K) (List.range p.ids.length) q0 with
          | mk r q =>
            rw [hf] at h
            cases r with
            | err er => cases h
            | panic => cases h
            | ok u =>
              simp only [Prod.mk.injEq, Res.ok.injEq] at h
              obtain ⟨h1, rfl⟩ := h
              obtain ⟨⟨b, c, b3⟩, b1, -⟩ := forJ_post (step := r1Step e rnd n K)
                (fun s => ∃ x y, s = { q0 with send12 := x, m12 := y } ∧ x.length = p.ids.length)
                (fun j s => j < p.ids.length → Sent1 e rnd n K p j s)
                (by
                  rintro s j s' ⟨x, y, rfl, hx⟩ hst
                  have e1 : q0.keys.ringPedersenPKs = p.keys.ringPedersenPKs := by rw [hq0]
                  have e2 : q0.ssid = ssidConst := by rw [hq0]
                  have e3 : q0.index = p.index := by rw [hq0]
                  unfold r1Step at hst
                  simp only [e1, e2, e3] at hst
                  split at hst
                  · cases hst
                  next ped hped =>
                    split at hst
                    · cases hst
                    · cases hst
                    next msg hmsg =>
                      simp only [Prod.mk.injEq, true_and] at hst
                      subst hst
                      refine ⟨⟨x.set j (wireBytes (.sg1b (encMarshal msg))), _, by rw [e2, e3], by simpa using hx⟩,
                        fun hj => ⟨ped, msg, hped, hmsg, ?_⟩, ?_⟩
                      · rw [getD_set, if_pos ⟨rfl, by rw [hx]; exact hj⟩]
                      · intro i hij hQ hi'
                        obtain ⟨ped', msg', c1, c2, c3⟩ := hQ hi'
                        refine ⟨ped', msg', c1, c2, ?_⟩
                        rw [← c3, getD_set, if_neg]
                        rintro ⟨h1, -⟩; exact hij h1.symm)
                (List.range p.ids.length) q0 q ⟨q0.send12, q0.m12, rfl, by rw [hq0]; exact hi.ls1⟩ hf
              obtain ⟨rfl, -⟩ := b3
              refine ⟨n, K, hn, hk.1, hk.2, hc, h1.symm, ?_, ?_, ?_, ?_, ?_, ?_, ⟨some s, ?_⟩, fun j hj => b1 j (List.mem_range.mpr hj) hj⟩
              all_goals (rw [hq0])
              rw [getD_set, if_pos ⟨rfl, by rw [hi.lkc]; exact hi.idx⟩]
  · cases h

/-- what party `i` has for the receiver `j` after round 2: a proof it has checked itself -/
def Sent2 (e : Env) (K n : Int) (Ri G : ECPoint) (p : Party) (j : Nat) (q : Party) : Prop :=
  ∃ ped m, p.keys.ringPedersenPKs.getD j none = some ped ∧ validUTF8 m.z1 = true ∧ validUTF8 m.z3 = true ∧
    LogMsg.verify e.Hb Ed.curve proofParameter (context p.ssid p.index) K n ped Ri G m = .ok () ∧
    q.send2.getD j [] = wireBytes (.sg2 (intBytes Ri.x) (intBytes Ri.y) (logMarshal m))

theorem r2Exec_all {e : Env} {draws : Nat → Draws} {p p' : Party} (hi : PInv p) (h : r2Exec e draws p = (.ok (), p')) :
    ∃ k K n Ri G, p.k = some k ∧ p.kc.getD p.index none = some K ∧ p.keys.paillierPKs.getD p.index none = some n ∧
      ECPoint.scalarBaseMult Ed.curve k = some Ri ∧ ECPoint.new Ed.curve Ed.curve.Gx Ed.curve.Gy = some G ∧ p'.index = p.index ∧
      p'.ids = p.ids ∧ p'.ssid = p.ssid ∧ p'.keys = p.keys ∧
      (∀ j, j < p.ids.length → j ≠ p.index → ∃ b, parseWireMsg (p.m11.getD j []) = some (.sg1a b) ∧
        p'.kc.getD j none = some (beNat b : Int)) ∧
      ∀ j, j < p.ids.length → Sent2 e K n Ri G p j p' := by
  obtain ⟨p2, k, G, Ri, rho, K, n, g1, g2, g3, g4, g5, g6, g7, g8⟩ := (r2Exec_ok_iff e draws p p').mp h
  obtain ⟨g9, g10⟩ := (r2Loop_ok_iff _ _ _ _).mp g1
  obtain ⟨kc, f1, f2, f3⟩ := r2fold (List.range p.m11.length) (resetOK { p with number := 2 })
  rw [f1] at g10
  have i1 : p2.index = p.index := by rw [g10]; rfl
  have i2 : p2.ids = p.ids := by rw [g10]; rfl
  have i3 : p2.ssid = p.ssid := by rw [g10]; rfl
  have i4 : p2.keys = p.keys := by rw [g10]; rfl
  have i5 : p2.k = p.k := by rw [g10]; rfl
  have i6 : p2.kc = kc := by rw [g10]
  have i7 : p2.send2 = p.send2 := by rw [g10]; rfl
  rw [i5] at g2
  rw [i1, i6, f3, if_neg (by rintro ⟨-, h2, -⟩; exact h2 rfl)] at g6
  rw [i1, i4] at g7
  obtain ⟨⟨a, b, hp', -⟩, b1, -⟩ := forJ_post (step := r2Prove e draws k rho K n Ri G)
    (fun s => ∃ x y, s = { p2 with send2 := x, m2 := y } ∧ x.length = p.ids.length)
    (fun j s => j < p.ids.length → Sent2 e K n Ri G p j s)
    (by
      rintro s j s' ⟨x, y, rfl, hx⟩ hst
      unfold r2Prove at hst
      simp only [i1, i3, i4] at hst
      split at hst
      · cases hst
      next ped hped =>
        split at hst
        · cases hst
        · cases hst
        next m hm =>
          split at hst
          · cases hst
          · cases hst
          next u hv =>
            simp only [Prod.mk.injEq, true_and] at hst
            subst hst
            obtain ⟨t1, t2⟩ := log_new_text hm
            refine ⟨⟨x.set j (wireBytes (.sg2 (intBytes Ri.x) (intBytes Ri.y) (logMarshal m))), _, by rw [i1, i3, i4], by simpa using hx⟩,
              fun hj => ⟨ped, m, hped, t1, t2, hv, ?_⟩, ?_⟩
            · rw [getD_set, if_pos ⟨rfl, by rw [hx]; exact hj⟩]
            · intro i hij hQ hi'
              obtain ⟨ped', msg', c1, c2, c3, c4, c5⟩ := hQ hi'
              refine ⟨ped', msg', c1, c2, c3, c4, ?_⟩
              rw [← c5, getD_set, if_neg]
              rintro ⟨h1, -⟩; exact hij h1.symm)
    (List.range p2.ids.length) p2 p' ⟨p2.send2, p2.m2, rfl, by rw [i7]; exact hi.ls2⟩ g8
  refine ⟨k, K, n, Ri, G, g2, g6, g7, g4, g3, by rw [hp']; exact i1, by rw [hp']; exact i2, by rw [hp']; exact i3,
    by rw [hp']; exact i4, ?_, fun j hj => b1 j (by rw [i2]; exact List.mem_range.mpr hj) hj⟩
  intro j hj hji
  obtain ⟨bK, m, proof, nj, ped, a1, -⟩ := g9 j (by rw [List.mem_range, hi.l11]; exact hj) hji
  refine ⟨bK, a1, ?_⟩
  rw [hp']
  show p2.kc.getD j none = _
  rw [i6, f3 j, if_pos ⟨by rw [List.mem_range, hi.l11]; exact hj, hji, by change j < p.kc.length; rw [hi.lkc]; exact hj⟩]
  have a1' : parseWireMsg ((resetOK { p with number := 2 }).m11.getD j []) = some (.sg1a bK) := a1
  unfold kcOf
  rw [a1']

/-! ### what the rounds name -/

theorem r2Verify_blamed {e : Env} {p : Party} {j k : Nat} {er : Err} (h : (r2Verify e p j).1 = .err er)
    (hn : spec.blamed er = some k) : k = j ∧ j ≠ p.index := by
  unfold r2Verify at h
  by_cases hj : j = p.index
  · rw [if_pos hj] at h; cases h
  rw [if_neg hj] at h
  refine ⟨?_, hj⟩
  split at h
  · cases h; cases hn
  · simp only at h
    split at h
    · cases h; cases hn
    · split at h
      · cases h; exact (Option.some.inj hn).symm
      · split at h
        · split at h
          · cases h
          · cases h; exact (Option.some.inj hn).symm
          · cases h
        · cases h
    · cases h
  · cases h

theorem r2Prove_blames_nobody {e : Env} {draws : Nat → Draws} {k rho K n : Int} {Ri G : ECPoint} {p : Party} {j : Nat} {er : Err}
    (h : (r2Prove e draws k rho K n Ri G p j).1 = .err er) : spec.blamed er = none := by
  unfold r2Prove at h
  generalize Ed.curve = cv at h
  split at h
  · cases h
  · split at h
    · cases h; rfl
    · cases h
    · split at h
      · cases h; rfl
      · cases h
      · cases h

/-- a party that round 2 blames sent a bad pair of round-1 messages -/
theorem r2Exec_blamed {e : Env} {draws : Nat → Draws} {p : Party} {er : Err} {k : Nat} (h : (r2Exec e draws p).1 = .err er)
    (hn : spec.blamed er = some k) : k ≠ p.index ∧ ¬ ∃ K m, Good2 e p k K m := by
  have hl : (forJ (r2Verify e) (List.range (resetOK { p with number := 2 }).m11.length) (resetOK { p with number := 2 })).1 = .err er := by
    unfold r2Exec at h
    simp only at h
    cases hr : forJ (r2Verify e) (List.range (resetOK { p with number := 2 }).m11.length) (resetOK { p with number := 2 }) with
    | mk r s =>
      rw [hr] at h
      cases r with
      | err er' => simp only at h; cases h; rfl
      | panic => simp at h
      | ok u =>
        exfalso
        simp only at h
        split at h
        · cases h
        · split at h
          · cases h; cases hn
          · split at h
            · obtain ⟨j, -, s', -, hs'⟩ := forJ_err (fun _ => True) (fun _ _ _ => trivial) _ _ trivial h
              rw [r2Prove_blames_nobody hs'] at hn
              cases hn
            · cases h
  obtain ⟨j, -, s, ⟨kc, hs⟩, b⟩ := forJ_err (fun s => ∃ kc, s = { resetOK { p with number := 2 } with kc := kc })
    (fun s j hs => by
      obtain ⟨kc, rfl⟩ := hs
      unfold r2Verify
      split
      · exact ⟨_, rfl⟩
      · split
        · exact ⟨_, rfl⟩
        · simp only
          split
          · exact ⟨_, rfl⟩
          · split
            · exact ⟨_, rfl⟩
            · split
              · split <;> exact ⟨_, rfl⟩
              · exact ⟨_, rfl⟩
          · exact ⟨_, rfl⟩
        · exact ⟨_, rfl⟩) _ _ ⟨_, rfl⟩ hl
  obtain ⟨rfl, hj⟩ := r2Verify_blamed b hn
  subst hs
  refine ⟨hj, ?_⟩
  rintro ⟨K, m, hg⟩
  have := (r2Verify_ok_iff e _ k _).mpr ⟨fun _ => ⟨K, m, (show Good2 e { resetOK { p with number := 2 } with kc := kc } k K m from hg)⟩, rfl⟩
  rw [this] at b
  cases b

/-- an acceptable round-2 message passes the step of round 3 -/
theorem r3Step_good {e : Env} {zs : Nat → Int} {G : ECPoint} {p : Party} {E : Ed.Ext} {j : Nat} (hj : j ≠ p.index)
    (h : ∃ R, Good3 e G p j R) : (r3Step e zs G p E j).1 = .ok () := by
  obtain ⟨R, hR⟩ := h
  obtain ⟨rx, ry, lp, m, K, n, ped, -, -, h3, -⟩ := id hR
  obtain ⟨-, hon⟩ := PLawful.new_some h3
  obtain ⟨inv', g1, g2, g3, g4⟩ := Ed.lawful.eightInvEight_pt hon (by decide +kernel)
  have := (r3Step_ok_iff e zs G p E j _).mpr (.inr ⟨hj, R, _, hR, g4, rfl⟩)
  rw [this]

theorem r3Step_blamed' {e : Env} {zs : Nat → Int} {G : ECPoint} {p : Party} {E : Ed.Ext} {j k : Nat} {er : Err}
    (h : (r3Step e zs G p E j).1 = .err er) (hn : spec.blamed er = some k) (hj : j ≠ p.index) (hg : ¬ ∃ R, Good3 e G p j R) : k = j := by
  unfold r3Step at h
  unfold Good3 at hg
  generalize Ed.curve = cv at h hg
  generalize Ed.ecPointToExtendedElement = toE at h
  generalize proofParameter = pp at h hg
  rw [if_neg hj] at h
  cases h1 : parseWireMsg (p.m2.getD j []) with
  | none => rw [h1] at h; cases h; cases hn
  | some c =>
    rw [h1] at h
    cases c with
    | sg2 rx ry lp =>
      simp only at h
      cases h2 : logUnmarshal lp with
      | none => rw [h2] at h; cases h; exact (Option.some.inj hn).symm
      | some m =>
        rw [h2] at h
        simp only at h
        cases h3 : ECPoint.new cv (beNat rx) (beNat ry) with
        | none => rw [h3] at h; cases h; exact (Option.some.inj hn).symm
        | some Rj =>
          rw [h3] at h
          simp only at h
          cases h4 : p.kc.getD j none with
          | none => rw [h4] at h; cases h
          | some K =>
            cases h5 : p.keys.paillierPKs.getD j none with
            | none => rw [h4, h5] at h; cases h
            | some n =>
              cases h6 : p.keys.ringPedersenPKs.getD p.index none with
              | none => rw [h4, h5, h6] at h; cases h
              | some ped =>
                rw [h4, h5, h6] at h
                simp only at h
                cases h7 : m.verify e.Hb cv pp (context p.ssid j) K n ped Rj G with
                | ok u => exact absurd ⟨Rj, rx, ry, lp, m, K, n, ped, h1, h2, h3, h4, h5, h6, h7⟩ hg
                | panic => rw [h7] at h; cases h
                | err er' => rw [h7] at h; cases h; exact (Option.some.inj hn).symm
    | _ => cases h

theorem r3Step_blamed {e : Env} {zs : Nat → Int} {G : ECPoint} {p : Party} {E : Ed.Ext} {j k : Nat} {er : Err}
    (h : (r3Step e zs G p E j).1 = .err er) (hn : spec.blamed er = some k) : k = j ∧ j ≠ p.index ∧ ¬ ∃ R, Good3 e G p j R := by
  by_cases hj : j = p.index
  · unfold r3Step at h; rw [if_pos hj] at h; cases h
  · by_cases hg : ∃ R, Good3 e G p j R
    · rw [r3Step_good hj hg] at h; cases h
    · exact ⟨r3Step_blamed' h hn hj hg, hj, hg⟩

/-- a party that round 3 blames sent a bad round-2 message -/
theorem r3Exec_blamed {e : Env} {zs : Nat → Int} {p : Party} {er : Err} {k : Nat} (h : (r3Exec e zs p).1 = .err er)
    (hn : spec.blamed er = some k) : k ≠ p.index ∧
      ∀ G, ECPoint.new Ed.curve Ed.curve.Gx Ed.curve.Gy = some G → ¬ ∃ R, Good3 e G p k R := by
  have hb := fun G E j => r3Step_blamed (e := e) (zs := zs) (G := G) (p := resetOK { p with number := 3 }) (E := E) (j := j) (k := k) (er := er)
  have hgood : ∀ G, (∃ R, Good3 e G p k R) ↔ ∃ R, Good3 e G (resetOK { p with number := 3 }) k R := fun _ => Iff.rfl
  simp only [hgood]
  unfold r3Exec at h
  simp only at h
  change k ≠ (resetOK { p with number := 3 }).index ∧ _
  generalize resetOK { p with number := 3 } = q at h hb ⊢
  generalize r3Step e = step at h hb
  generalize Good3 e = good at hb ⊢
  generalize Ed.geScalarMultBase = base at h
  generalize Ed.scMulAdd = mulAdd at h
  generalize Ed.scReduce = red at h
  generalize Ed.ecPointToEncodedBytes = enc at h
  generalize Ed.curve = curve at h ⊢
  cases hG : ECPoint.new curve curve.Gx curve.Gy with
  | none => rw [hG] at h; cases h; cases hn
  | some G =>
    rw [hG] at h
    simp only at h
    cases hr : forJ (step zs G q) (List.range q.m2.length)
        (base (Ed.bigIntToEncodedBytes q.k)) with
    | mk r E =>
      rw [hr] at h
      cases r with
      | panic => cases h
      | ok u =>
        simp only at h
        split at h <;> cases h
      | err er' =>
        cases h
        obtain ⟨j, -, s, -, b⟩ := forJ_err (fun _ => True) (fun _ _ _ => trivial) _ _ trivial
          (show (forJ (step zs G q) (List.range q.m2.length)
        (base (Ed.bigIntToEncodedBytes q.k))).1 = .err er by rw [hr])
        obtain ⟨rfl, hj, hno⟩ := hb G s j b hn
        refine ⟨hj, fun G' hG' => ?_⟩
        cases hG'
        exact hno

/-! ### what an honest client holds -/

theorem signed1 {e : Env} {key : Bytes} {rnd : Rand1} {w1 : Bytes} {r : Reg} (h : spec.Signed1 e key rnd w1 r) :
    Reach e r ∧ ∃ p n K, r key = some p ∧ PInv p ∧ p.keys.paillierPKs.getD p.index none = some n ∧ 0 ≤ rnd.k ∧ rnd.k < n ∧
      Paillier.cipher n rnd.k rnd.rho = some K ∧ w1 = wireBytes (.sg1a (intBytes K)) ∧ p.ssid = ssidConst ∧ p.k = some rnd.k ∧
      p.kc.getD p.index none = some K ∧ ∀ j, j < p.ids.length → Sent1 e rnd n K p j p := by
  obtain ⟨r0, r1, ops, hr, h1, ha, rfl⟩ := h
  have hr1 : Reach e r1 := by
    have := Reach.step (Op.exec1 key rnd) hr
    rwa [show ((Op.exec1 key rnd).run e r0).2 = r1 by show (OnSignRound1Exec e rnd r0 key).2 = r1; rw [h1]] at this
  refine ⟨reach_runOps ops hr1, ?_⟩
  unfold OnSignRound1Exec at h1
  cases hk : r0 key with
  | none => rw [withParty_none _ _ hk] at h1; simp at h1
  | some p0 =>
    rw [withParty_some _ _ hk, Prod.mk.injEq] at h1
    obtain ⟨h2, h3⟩ := h1
    obtain ⟨p1, hp1e⟩ : ∃ p1, p1 = (r1Exec e rnd p0).2 := ⟨_, rfl⟩
    have h2' : r1Exec e rnd p0 = (.ok w1, p1) := Prod.ext h2 hp1e.symm
    obtain ⟨n, K, a1, a2, a3, a4, a5, a6, a7, a8, a9, a10, a11, ⟨ep, a12⟩, a13⟩ := r1Exec_all (reach_inv hr key p0 hk) h2'
    have hp1 : r1 key = some p1 := by rw [← h3, set_same, hp1e]
    obtain ⟨p, b1, b2⟩ := runOps_quiet e key ops r1 p1 hp1 ha
    have hpi := reach_inv (reach_runOps ops hr1) key p b1
    obtain ⟨s1, s2, s3, s4, rfl⟩ := b2
    refine ⟨_, n, K, b1, hpi, ?_, a2, a3, a4, a5, a8, a9, ?_, ?_⟩
    · show p1.keys.paillierPKs.getD p1.index none = _
      rw [a12, a6]; exact a1
    · show p1.kc.getD p1.index none = _
      rw [a6]; exact a11
    · intro j hj
      obtain ⟨ped, msg, c1, c2, c3⟩ := a13 j (by rw [← a7]; exact hj)
      refine ⟨ped, msg, ?_, ?_, c3⟩
      · show p1.keys.ringPedersenPKs.getD j none = _
        rw [a12]; exact c1
      · show NewEncryptRangeMessage _ _ (context ssidConst p1.index) _ _ _ _ _ _ = _
        rw [a6]; exact c2

theorem signed2 {e : Env} {key : Bytes} {rnd : Rand1} {w1 : Bytes} {M1 : List Bytes} {r : Reg} (h : spec.Signed2 e key rnd w1 M1 r) :
    Reach e r ∧ ∃ p n K Ri G, r key = some p ∧ PInv p ∧ p.keys.paillierPKs.getD p.index none = some n ∧ 0 ≤ rnd.k ∧ rnd.k < n ∧
      Paillier.cipher n rnd.k rnd.rho = some K ∧ w1 = wireBytes (.sg1a (intBytes K)) ∧ p.ssid = ssidConst ∧
      ECPoint.scalarBaseMult Ed.curve rnd.k = some Ri ∧ ECPoint.new Ed.curve Ed.curve.Gx Ed.curve.Gy = some G ∧
      (∀ j, j < p.ids.length → j ≠ p.index → ∃ b, parseWireMsg (M1.getD j []) = some (.sg1a b) ∧
        p.kc.getD j none = some (beNat b : Int)) ∧
      ∀ j, j < p.ids.length → Sent2 e K n Ri G p j p := by
  obtain ⟨draws, r1, r2, ops, q, hs, hq, hM, h1, ha, rfl⟩ := h
  obtain ⟨hr1, q', n, K, a0, a1, a2, a3, a4, a5, a6, a7, a8, a9, -⟩ := signed1 hs
  rw [hq] at a0; cases a0
  have hr2 : Reach e r2 := by
    have := Reach.step (Op.exec2 key draws) hr1
    rwa [show ((Op.exec2 key draws).run e r1).2 = r2 by show (OnsignRound2Exec e draws r1 key).2 = r2; rw [h1]] at this
  refine ⟨reach_runOps ops hr2, ?_⟩
  unfold OnsignRound2Exec at h1
  rw [withParty_some _ _ hq, Prod.mk.injEq] at h1
  obtain ⟨h2, h3⟩ := h1
  obtain ⟨p1, hp1e⟩ : ∃ p1, p1 = (r2Exec e draws q).2 := ⟨_, rfl⟩
  have h2' := (Prod.ext h2 hp1e.symm : r2Exec e draws q = (_, p1))
  obtain ⟨k, K', n', Ri, G, b1, b2, b3, b4, b5, b6, b7, b8, b9, b10, b11⟩ := r2Exec_all a1 h2'
  rw [a8] at b1; cases b1
  rw [a9] at b2; cases b2
  rw [a2] at b3; cases b3
  have hp1 : r2 key = some p1 := by rw [← h3, set_same, hp1e]
  obtain ⟨p, c1, c2⟩ := runOps_quiet e key ops r2 p1 hp1 ha
  have hpi := reach_inv (reach_runOps ops hr2) key p c1
  obtain ⟨s1, s2, s3, s4, rfl⟩ := c2
  refine ⟨_, n, K, Ri, G, c1, hpi, ?_, a3, a4, a5, a6, ?_, b4, b5, ?_, ?_⟩
  · show p1.keys.paillierPKs.getD p1.index none = _
    rw [b9, b6]; exact a2
  · show p1.ssid = _
    rw [b8]; exact a7
  · intro j hj hji
    rw [← hM]
    exact b10 j (by rw [← b7]; exact hj) (by rw [← b6]; exact hji)
  · intro j hj
    obtain ⟨ped, m, d1, d2, d3, d4, d5⟩ := b11 j (by rw [← b7]; exact hj)
    refine ⟨ped, m, ?_, d2, d3, ?_, d5⟩
    · show p1.keys.ringPedersenPKs.getD j none = _
      rw [b9]; exact d1
    · show LogMsg.verify _ _ _ (context p1.ssid p1.index) _ _ _ _ _ _ = _
      rw [b8, b6]; exact d4

theorem cipher_range {n k rho K : Int} (hk : 0 ≤ k) (hkn : k < n) (h : Paillier.cipher n k rho = some K) :
    ∃ N : Nat, n = N ∧ 0 < N ∧ 0 ≤ K ∧ (K : ZMod (N * N)) = pw (1 + (N : ZMod (N * N))) k * (rho : ZMod (N * N)) ^ N := by
  obtain ⟨N, rfl⟩ := Int.eq_ofNat_of_zero_le (show 0 ≤ n by omega)
  have hN : 0 < N := by omega
  have : NeZero N := ⟨by omega⟩
  obtain ⟨K', k1, k2, k3, k4⟩ := Paillier.cipher_some (n := N) k rho hk
  have h' : Paillier.cipher (N : Int) k rho = some K := h
  rw [k1] at h'; cases h'
  refine ⟨N, rfl, hN, k2, ?_⟩
  rw [k4]
  obtain ⟨kn, hkn⟩ := Int.eq_ofNat_of_zero_le hk
  rw [hkn, pw_natCast]
  rfl

/-- what a fetch call returns -/
theorem get1_eq {r : Reg} {key : Bytes} {p : Party} {t : Int} {u : Bytes} (hk : r key = some p)
    (h : (GetRound1Msg2 r key t).1 = .ok u) : 0 ≤ t ∧ t < p.send12.length ∧ p.send12.getD t.toNat [] = u := by
  unfold GetRound1Msg2 at h
  rw [withParty_some _ _ hk] at h
  simp only [getMsg] at h
  split at h
  · next hc => exact ⟨hc.1, hc.2, Res.ok.inj h⟩
  · cases h

theorem get2_eq {r : Reg} {key : Bytes} {p : Party} {t : Int} {u : Bytes} (hk : r key = some p)
    (h : (GetRound2Msg r key t).1 = .ok u) : 0 ≤ t ∧ t < p.send2.length ∧ p.send2.getD t.toNat [] = u := by
  unfold GetRound2Msg at h
  rw [withParty_some _ _ hk] at h
  simp only [getMsg] at h
  split at h
  · next hc => exact ⟨hc.1, hc.2, Res.ok.inj h⟩
  · cases h

/-- C82. Round 2 never blames an honest peer. Party `i` and party `j` have each run round 1 once, in whatever processes and
with whatever calls in between; they agree on the Paillier key of `j` and on the ring parameters of `i`, which are
well-formed. The draws of `j` are such that the encryption randomness is invertible and the mask leaves room for the
response. If `i` holds what the calls of `j` returned (the ciphertext, and the proof fetched for `i`), then round 2 of `i` does
not return an error that declares a message of `j` bad – whatever the messages of all other parties are. -/
theorem C82_round2 {e : Env} {ki kj wi wj uj : Bytes} {rndi rndj : Rand1} {r r' : Reg} {p q : Party} {n N s t : Nat}
    (hi : spec.Signed1 e ki rndi wi r) (hp : r ki = some p) (hj : spec.Signed1 e kj rndj wj r') (hq : r' kj = some q)
    (huj : (GetRound1Msg2 r' kj p.index).1 = .ok uj)
    (hm1 : p.m11.getD q.index [] = wj) (hm2 : p.m12.getD q.index [] = uj) (hl1 : wj.length < 2 ^ 64) (hl2 : uj.length < 2 ^ 64)
    (hn : p.keys.paillierPKs.getD q.index none = some (n : Int)) (hn' : q.keys.paillierPKs.getD q.index none = some (n : Int))
    (hped : p.keys.ringPedersenPKs.getD p.index none = some ((N : Int), (s : Int), (t : Int)))
    (hped' : q.keys.ringPedersenPKs.getD p.index none = some ((N : Int), (s : Int), (t : Int)))
    (hN : 0 < N) (hs : Nat.gcd s N = 1) (ht : Nat.gcd t N = 1) (hrho : Int.gcd rndj.rho n = 1)
    (hr : Int.gcd (rndj.enc p.index).r n = 1)
    (halpha : |(rndj.enc p.index).alpha| + Ed.curve.N * rndj.k ≤ 2 * 2 ^ proofParameter.lAddEpsilon) (draws : Nat → Draws) (er : Err)
    (he : (OnsignRound2Exec e draws r ki).1 = .err er) : spec.blamed er ≠ some q.index := by
  intro hb
  obtain ⟨-, p', ni, Ki, a0, a1, -, -, -, -, -, a7, -⟩ := signed1 hi
  rw [hp] at a0; cases a0
  obtain ⟨-, q', nj, K, b0, b1, b2, b3, b4, b5, b6, b7, b8, b9, b10⟩ := signed1 hj
  rw [hq] at b0; cases b0
  rw [hn'] at b2; cases b2
  unfold OnsignRound2Exec at he
  rw [withParty_some _ _ hp] at he
  obtain ⟨hne, hno⟩ := r2Exec_blamed he hb
  obtain ⟨c1, c2, c3⟩ := get1_eq hq huj
  rw [Int.toNat_natCast] at c3
  obtain ⟨ped, msg, d1, d2, d3⟩ := b10 p.index (by rw [← b1.ls1]; exact_mod_cast c2)
  rw [hped'] at d1; cases d1
  obtain ⟨N', hN', f1, f2, f3⟩ := cipher_range b3 b4 b5
  cases (Int.natCast_inj.mp hN')
  have hv := C35_enc_accepted_in_range e.Hb proofParameter (context ssidConst q.index) K rndj.k rndj.rho n N s t (rndj.enc p.index)
    f1 hN hs ht hrho hr f3 (by rw [abs_of_nonneg b3]; exact halpha) msg d2
  subst b6
  rw [d3] at c3
  subst c3
  obtain ⟨t1, t2⟩ := enc_new_text d2
  refine hno ⟨intBytes K, msg, encMarshal msg, n, ((N : Int), (s : Int), (t : Int)), ?_, ?_, ?_, hn, hped, ?_⟩
  · rw [hm1]; exact parse_sg1a hl1
  · rw [hm2]; exact parse_sg1b hl2
  · refine enc_roundtrip msg t1 t2 (lt_of_le_of_lt ?_ hl2)
    refine le_trans (encField_length_ge 1 _) (le_trans ?_ (wire_ge _))
    simp only [Content.marshal]; exact le_refl _
  · rw [a7, Keygen.beNat_coord f2]; exact hv

/-- C82. Round 3 never blames an honest peer. Party `i` and party `j` have each run rounds 1 and 2 once, in whatever processes and
with whatever calls in between, and agree on the Paillier key of `j` and on the ring parameters of `i` (whatever they are). If
`i` held the ciphertext of `j` when it ran round 2, and holds the round-2 message `j` made for `i` now, then round 3 of `i`
does not return an error that declares a message of `j` bad – whatever the messages of all other parties are, and
whatever `j` drew. -/
theorem C82_round3 {e : Env} {ki kj wi wj vj : Bytes} {rndi rndj : Rand1} {Mi Mj : List Bytes} {r r' : Reg} {p q : Party}
    (hi : spec.Signed2 e ki rndi wi Mi r) (hp : r ki = some p) (hj : spec.Signed2 e kj rndj wj Mj r') (hq : r' kj = some q)
    (hvj : (GetRound2Msg r' kj p.index).1 = .ok vj)
    (hlt : q.index < p.ids.length) (hm1 : Mi.getD q.index [] = wj) (hm2 : p.m2.getD q.index [] = vj)
    (hl1 : wj.length < 2 ^ 64) (hl2 : vj.length < 2 ^ 64)
    (hn : p.keys.paillierPKs.getD q.index none = q.keys.paillierPKs.getD q.index none)
    (hped : p.keys.ringPedersenPKs.getD p.index none = q.keys.ringPedersenPKs.getD p.index none)
    (zs : Nat → Int) (er : Err) (he : (OnsignRound3Exec e zs r ki).1 = .err er) : spec.blamed er ≠ some q.index := by
  intro hb
  obtain ⟨-, p', ni, Ki, Ri, G, a0, a1, -, -, -, -, -, a7, -, aG, a10, -⟩ := signed2 hi
  rw [hp] at a0; cases a0
  obtain ⟨-, q', n, K, R, G', b0, b1, b2, b3, b4, b5, b6, b7, b8, bG, -, b10⟩ := signed2 hj
  rw [hq] at b0; cases b0
  rw [aG] at bG; cases bG
  unfold OnsignRound3Exec at he
  rw [withParty_some _ _ hp] at he
  obtain ⟨hne, hno⟩ := r3Exec_blamed he hb
  obtain ⟨c1, c2, c3⟩ := get2_eq hq hvj
  rw [Int.toNat_natCast] at c3
  obtain ⟨ped, m, d1, d2, d3, d4, d5⟩ := b10 p.index (by rw [← b1.ls2]; exact_mod_cast c2)
  obtain ⟨N', hN', f1, f2, -⟩ := cipher_range b3 b4 b5
  obtain ⟨b, g1, g2⟩ := a10 q.index hlt hne
  subst b6
  rw [hm1, parse_sg1a hl1] at g1
  cases g1
  rw [Keygen.beNat_coord f2] at g2
  rw [d5] at c3
  subst c3
  have hR : R = Ed.lawful.pt (rndj.k • Ed.B) := by
    rw [scalarBase] at b8; exact (Option.some.inj b8).symm
  obtain ⟨x1, -, x3, -⟩ := coords_small (rndj.k • Ed.B)
  refine hno G aG ⟨R, intBytes R.x, intBytes R.y, logMarshal m, m, K, n, ped, ?_, ?_, ?_, g2, ?_, ?_, ?_⟩
  · rw [hm2]; exact parse_sg2 hl2
  · refine log_roundtrip m d2 d3 (lt_of_le_of_lt ?_ hl2)
    refine le_trans (encField_length_ge 3 _) (le_trans ?_ (wire_ge _))
    simp only [Content.marshal, List.length_append]; omega
  · rw [hR, Keygen.beNat_coord x1, Keygen.beNat_coord x3]
    exact Ed.lawful.new_coords _
  · rw [hn]; exact b2
  · rw [hped]; exact d1
  · rw [a7, ← b7]; exact d4

end Tss.Onsign
