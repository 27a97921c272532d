import Verif.Lemmas.Onsign
/-! Closed forms of the loops of the signing rounds. -/
namespace Tss.Onsign
open Tss Text Wire RangeProofs
open _root_.Tss.Keygen (forJ forJ_cons_ok forJ_ok_fold forJ_ok_of getD_set)

/-! ### round 2, verification -/

/-- What peer `j` sent in round 1 is acceptable: `(K, m)` is its ciphertext and its proof. -/
def Good2 (e : Env) (p : Party) (j : Nat) (K : Bytes) (m : EncMsg) : Prop :=
  ∃ proof n ped, parseWireMsg (p.m11.getD j []) = some (.sg1a K) ∧ parseWireMsg (p.m12.getD j []) = some (.sg1b proof) ∧
    encUnmarshal proof = some m ∧ p.keys.paillierPKs.getD j none = some n ∧
    p.keys.ringPedersenPKs.getD p.index none = some ped ∧
    m.verify e.Hb proofParameter (context p.ssid j) (beNat K) n ped = .ok ()

/-- state change of a successful iteration -/
def r2upd (p : Party) (j : Nat) : Party :=
  if j = p.index then p
  else match parseWireMsg (p.m11.getD j []) with
    | some (.sg1a K) => { p with kc := p.kc.set j (some (beNat K : Int)) }
    | _ => p

theorem r2Verify_ok_iff (e : Env) (p : Party) (j : Nat) (p' : Party) :
    r2Verify e p j = (.ok (), p') ↔ (j ≠ p.index → ∃ K m, Good2 e p j K m) ∧ p' = r2upd p j := by
  unfold r2Verify r2upd Good2
  by_cases hj : j = p.index
  · simp [hj, eq_comm]
  simp only [hj, if_false, ne_eq, not_false_eq_true, forall_true_left]
  cases h1 : parseWireMsg (p.m11.getD j []) with
  | none => simp
  | some c =>
    cases c with
    | sg1a K =>
      simp only
      cases h2 : parseWireMsg (p.m12.getD j []) with
      | none => simp
      | some c2 =>
        cases c2 with
        | sg1b proof =>
          simp only
          cases h3 : encUnmarshal proof with
          | none => simp [h3]
          | some m =>
            simp only
            cases h4 : p.keys.paillierPKs.getD j none with
            | none => simp
            | some n =>
              cases h5 : p.keys.ringPedersenPKs.getD p.index none with
              | none => simp
              | some ped =>
                simp only
                cases h6 : m.verify e.Hb proofParameter (context p.ssid j) (beNat K) n ped with
                | ok u =>
                  simp only [Prod.mk.injEq, true_and, Option.some.injEq, Content.sg1a.injEq, Content.sg1b.injEq]
                  constructor
                  · rintro rfl
                    exact ⟨⟨K, m, proof, n, ped, rfl, rfl, h3, rfl, rfl, h6⟩, rfl⟩
                  · rintro ⟨-, rfl⟩; rfl
                | err er =>
                  simp only [Prod.mk.injEq, reduceCtorEq, false_and, Option.some.injEq, Content.sg1a.injEq,
                    Content.sg1b.injEq, false_iff, not_and]
                  rintro ⟨K', m', proof', n', ped', rfl, rfl, h3', rfl, rfl, h6'⟩
                  rw [h3] at h3'; cases h3'; rw [h6] at h6'; cases h6'
                | panic =>
                  simp only [Prod.mk.injEq, reduceCtorEq, false_and, Option.some.injEq, Content.sg1a.injEq,
                    Content.sg1b.injEq, false_iff, not_and]
                  rintro ⟨K', m', proof', n', ped', rfl, rfl, h3', rfl, rfl, h6'⟩
                  rw [h3] at h3'; cases h3'; rw [h6] at h6'; cases h6'
        | _ => simp
    | _ => simp

theorem r2upd_eq (p : Party) (j : Nat) : ∃ kc, r2upd p j = { p with kc := kc } := by
  unfold r2upd
  split
  · exact ⟨p.kc, rfl⟩
  · split
    · exact ⟨_, rfl⟩
    · exact ⟨p.kc, rfl⟩

theorem good2_upd (e : Env) (p : Party) (i j : Nat) (K : Bytes) (m : EncMsg) :
    Good2 e (r2upd p i) j K m ↔ Good2 e p j K m := by
  obtain ⟨kc, h⟩ := r2upd_eq p i
  rw [h]; rfl

/-- the ciphertext of peer `k` after the loop -/
def kcOf (p : Party) (k : Nat) : Option Int :=
  match parseWireMsg (p.m11.getD k []) with
  | some (.sg1a K) => some (beNat K : Int)
  | _ => p.kc.getD k none

theorem r2fold (l : List Nat) (p : Party) :
    ∃ kc, l.foldl r2upd p = { p with kc := kc } ∧ kc.length = p.kc.length ∧
      ∀ k, kc.getD k none = if k ∈ l ∧ k ≠ p.index ∧ k < p.kc.length then kcOf p k else p.kc.getD k none := by
  induction l generalizing p with
  | nil => exact ⟨p.kc, rfl, rfl, by simp⟩
  | cons j t ih =>
    obtain ⟨kc0, h0⟩ := r2upd_eq p j
    obtain ⟨kc, h1, h2, h3⟩ := ih (r2upd p j)
    have hl : (r2upd p j).kc.length = p.kc.length := by
      unfold r2upd; split
      · rfl
      · split <;> simp
    refine ⟨kc, ?_, by rw [h2, hl], ?_⟩
    · rw [List.foldl_cons, h1, h0]
    · intro k
      rw [h3, hl]
      have hi : (r2upd p j).index = p.index := by rw [h0]
      have hm : (r2upd p j).m11 = p.m11 := by rw [h0]
      have hk : (r2upd p j).kc.getD k none =
          if j = k ∧ k ≠ p.index ∧ k < p.kc.length then kcOf p k else p.kc.getD k none := by
        unfold r2upd kcOf
        by_cases hji : j = p.index
        · rw [if_pos hji]
          rw [if_neg]; rintro ⟨rfl, h, -⟩; exact h hji
        · rw [if_neg hji]
          by_cases hjk : j = k
          · subst hjk
            cases hp : parseWireMsg (p.m11.getD j []) with
            | none => simp only; split <;> rfl
            | some c =>
              cases c <;> simp only [getD_set] <;> first | rfl | (split <;> rfl) | skip
              simp [hji]
          · cases hp : parseWireMsg (p.m11.getD j []) with
            | none => simp only [hjk, false_and, if_false]
            | some c => cases c <;> simp only [getD_set, hjk, false_and, if_false]
      have hof : kcOf (r2upd p j) k = if j = k ∧ k ≠ p.index ∧ k < p.kc.length then kcOf p k else kcOf p k := by
        rw [ite_self]
        unfold kcOf
        rw [hm]
        cases hp : parseWireMsg (p.m11.getD k []) with
        | none =>
          simp only; rw [hk]; unfold kcOf; rw [hp]; simp only [ite_self]
        | some c =>
          cases c <;> simp only <;> (try (rw [hk]; unfold kcOf; rw [hp]; simp only [ite_self]))
      rw [ite_self] at hof
      rw [hi, hof, hk]
      by_cases hkt : k ∈ t
      · by_cases hrest : k ≠ p.index ∧ k < p.kc.length
        · simp [hkt, hrest]
        · have : ∀ Q : Prop, ¬ (Q ∧ k ≠ p.index ∧ k < p.kc.length) := fun Q h => hrest h.2
          simp only [this, if_false]
      · by_cases hjk : j = k
        · subst hjk; simp [hkt]
        · have : ¬ k = j := fun e => hjk e.symm
          simp [hkt, hjk, this]

theorem r2Loop_ok_iff (e : Env) (l : List Nat) (p p' : Party) :
    forJ (r2Verify e) l p = (.ok (), p') ↔
      (∀ j ∈ l, j ≠ p.index → ∃ K m, Good2 e p j K m) ∧ p' = l.foldl r2upd p := by
  have hidx : ∀ q i, (r2upd q i).index = q.index := by
    intro q i; obtain ⟨kc, h⟩ := r2upd_eq q i; rw [h]
  constructor
  · intro h
    refine ⟨?_, forJ_ok_fold (fun s j s' h => ((r2Verify_ok_iff e s j s').mp h).2) h⟩
    induction l generalizing p with
    | nil => simp
    | cons j t ih =>
      obtain ⟨s1, h1, h2⟩ := forJ_cons_ok.mp h
      obtain ⟨h3, rfl⟩ := (r2Verify_ok_iff _ _ _ _).mp h1
      intro k hk hki
      rcases List.mem_cons.mp hk with rfl | hk
      · exact h3 hki
      · obtain ⟨K, m, hg⟩ := ih _ h2 k hk (by rwa [hidx])
        exact ⟨K, m, (good2_upd _ _ _ _ _ _).mp hg⟩
  · rintro ⟨h, rfl⟩
    exact forJ_ok_of r2upd (fun s j => j ≠ s.index → ∃ K m, Good2 e s j K m)
      (fun s j hs => (r2Verify_ok_iff _ _ _ _).mpr ⟨hs, rfl⟩)
      (fun s i j hs hj => by
        obtain ⟨K, m, hg⟩ := hs (by rwa [hidx] at hj)
        exact ⟨K, m, (good2_upd _ _ _ _ _ _).mpr hg⟩) l p h

/-! ### rounds 1 and 2, proof loops: fill the slots of the receivers -/

/-- A loop whose step `j` writes a value depending only on `j` into slot `j` of one list and, at the own index, into a
second list. -/
theorem forJ_slots {ε : Type} {step : Party → Nat → Res ε Unit × Party} (w : Nat → Bytes)
    (get : Party → List Bytes × List Bytes) (put : Party → List Bytes × List Bytes → Party) (idx : Nat)
    (hgp : ∀ p v, get (put p v) = v) (hpp : ∀ p v v', put (put p v) v' = put p v') (hpg : ∀ p, put p (get p) = p)
    (C : Party → Prop) (hC : ∀ p v, C p → C (put p v))
    (J : Nat → Prop)
    (hstep : ∀ p j, J j → C p → step p j = (.ok (), put p ((get p).1.set j (w j), if j = idx then (get p).2.set j (w j) else (get p).2)))
    : ∀ (l : List Nat) (p : Party), (∀ j ∈ l, J j) → C p → ∃ a b, forJ step l p = (.ok (), put p (a, b)) ∧
      a.length = (get p).1.length ∧ b.length = (get p).2.length ∧
      (∀ k, a.getD k [] = if k ∈ l ∧ k < (get p).1.length then w k else (get p).1.getD k []) ∧
      (∀ k, b.getD k [] = if k ∈ l ∧ k = idx ∧ k < (get p).2.length then w k else (get p).2.getD k [])
  | [], p, _, _ => ⟨(get p).1, (get p).2, by simp [forJ, hpg], rfl, rfl, by simp, by simp⟩
  | j :: t, p, hJ, hp => by
    obtain ⟨a, b, h1, h2, h3, h4, h5⟩ := forJ_slots w get put idx hgp hpp hpg C hC J hstep t
      (put p ((get p).1.set j (w j), if j = idx then (get p).2.set j (w j) else (get p).2)) (fun j hj => hJ j (by simp [hj])) (hC _ _ hp)
    rw [hgp] at h2 h3 h4 h5
    simp only [List.length_set] at h2 h4
    have hlen : (if j = idx then (get p).2.set j (w j) else (get p).2).length = (get p).2.length := by
      split <;> simp
    rw [hlen] at h3 h5
    refine ⟨a, b, ?_, h2, h3, ?_, ?_⟩
    · rw [forJ_cons_ok]; exact ⟨_, hstep p j (hJ j (by simp)) hp, by rw [h1, hpp]⟩
    · intro k
      rw [h4, getD_set]
      by_cases hkt : k ∈ t <;> by_cases hjk : j = k <;> by_cases hl : k < (get p).1.length <;>
        simp [hkt, hjk, hl, eq_comm]
    · intro k
      rw [h5]
      by_cases hji : j = idx
      · subst hji
        rw [if_pos rfl, getD_set]
        by_cases hkt : k ∈ t <;> by_cases hjk : j = k <;> by_cases hl : k < (get p).2.length <;>
          simp [hkt, hjk, hl, eq_comm]
      · rw [if_neg hji]
        have h' : k = idx → ¬ k = j := fun h h2 => hji (h2.symm.trans h)
        by_cases hki : k = idx
        · have := h' hki
          simp only [List.mem_cons, this, false_or]
        · simp only [hki, false_and, and_false, if_false]

/-! ### round 3 -/

/-- What peer `j` sent in round 2 is acceptable: `R` is its nonce point. -/
def Good3 (e : Env) (G : ECPoint) (p : Party) (j : Nat) (R : ECPoint) : Prop :=
  ∃ rx ry lp m K n ped, parseWireMsg (p.m2.getD j []) = some (.sg2 rx ry lp) ∧ logUnmarshal lp = some m ∧
    ECPoint.new Ed.curve (beNat rx) (beNat ry) = some R ∧ p.kc.getD j none = some K ∧
    p.keys.paillierPKs.getD j none = some n ∧ p.keys.ringPedersenPKs.getD p.index none = some ped ∧
    m.verify e.Hb Ed.curve proofParameter (context p.ssid j) K n ped R G = .ok ()

theorem good3_unique {e : Env} {G : ECPoint} {p : Party} {j : Nat} {R R' : ECPoint} (h : Good3 e G p j R)
    (h' : Good3 e G p j R') : R = R' := by
  obtain ⟨rx, ry, lp, m, K, n, ped, h1, h2, h3, -⟩ := h
  obtain ⟨rx', ry', lp', m', K', n', ped', h1', h2', h3', -⟩ := h'
  rw [h1] at h1'; cases h1'
  rw [h3] at h3'; cases h3'
  rfl

theorem r3Step_ok_iff (e : Env) (zs : Nat → Int) (G : ECPoint) (p : Party) (E : Ed.Ext) (j : Nat) (E' : Ed.Ext) :
    r3Step e zs G p E j = (.ok (), E') ↔ (j = p.index ∧ E' = E) ∨ (j ≠ p.index ∧ ∃ R R8, Good3 e G p j R ∧
      ECPoint.eightInvEight Ed.curve R = .ok (some R8) ∧ E' = E.add (Ed.ecPointToExtendedElement R8.x R8.y (zs j))) := by
  unfold r3Step Good3
  generalize Ed.curve = curve
  generalize Ed.ecPointToExtendedElement = toE
  generalize hpp : proofParameter = pp
  by_cases hj : j = p.index
  · simp [hj, eq_comm]
  simp only [hj, if_false, ne_eq, not_false_eq_true, true_and, false_and, false_or]
  cases h1 : parseWireMsg (p.m2.getD j []) with
  | none => simp
  | some c =>
    cases c with
    | sg2 rx ry lp =>
      simp only
      cases h2 : logUnmarshal lp with
      | none => simp [h2]
      | some m =>
        simp only
        cases h3 : ECPoint.new curve (beNat rx) (beNat ry) with
        | none =>
          simp only [Prod.mk.injEq, reduceCtorEq, false_and, false_iff]
          rintro ⟨R, R8, ⟨rx', ry', lp', m', K', n', ped', h1', h2', h3', -⟩, -⟩
          cases h1'; rw [h3] at h3'; cases h3'
        | some R =>
          simp only
          have key : ∀ R', (∃ rx' ry' lp' m' K n ped, some (Content.sg2 rx ry lp) = some (Content.sg2 rx' ry' lp') ∧
              logUnmarshal lp' = some m' ∧ ECPoint.new curve (beNat rx') (beNat ry') = some R' ∧
              p.kc.getD j none = some K ∧ p.keys.paillierPKs.getD j none = some n ∧
              p.keys.ringPedersenPKs.getD p.index none = some ped ∧
              m'.verify e.Hb curve pp (context p.ssid j) K n ped R' G = .ok ()) ↔
              (R' = R ∧ ∃ K n ped, p.kc.getD j none = some K ∧ p.keys.paillierPKs.getD j none = some n ∧
              p.keys.ringPedersenPKs.getD p.index none = some ped ∧
              m.verify e.Hb curve pp (context p.ssid j) K n ped R G = .ok ()) := by
            intro R'
            constructor
            · rintro ⟨rx', ry', lp', m', K, n, ped, e1, e2, e3, e4, e5, e6, e7⟩
              cases e1
              rw [h2] at e2; cases e2
              rw [h3] at e3; cases e3
              exact ⟨rfl, K, n, ped, e4, e5, e6, e7⟩
            · rintro ⟨rfl, K, n, ped, e4, e5, e6, e7⟩
              exact ⟨rx, ry, lp, m, K, n, ped, rfl, h2, h3, e4, e5, e6, e7⟩
          simp only [key]
          cases h4 : p.kc.getD j none with
          | none => simp
          | some K =>
            cases h5 : p.keys.paillierPKs.getD j none with
            | none => simp
            | some n =>
              cases h6 : p.keys.ringPedersenPKs.getD p.index none with
              | none => simp
              | some ped =>
                simp only
                generalize h7 : m.verify e.Hb curve pp (context p.ssid j) K n ped R G = v
                have key2 : (∃ K' n' ped', some K = some K' ∧ some n = some n' ∧ some ped = some ped' ∧ 
                   m.verify e.Hb curve pp (context p.ssid j) K' n' ped' R G = .ok ()) ↔ v = .ok () := by
                  rw [← h7]
                  constructor
                  · rintro ⟨K', n', ped', e1, e2, e3, e4⟩
                    cases e1; cases e2; cases e3; exact e4
                  · exact fun h => ⟨K, n, ped, rfl, rfl, rfl, h⟩
                simp only [key2]
                clear key2 h7 key h3
                have key3 : (∃ R' R8, (R' = R ∧ v = .ok ()) ∧ ECPoint.eightInvEight curve R' = .ok (some R8) ∧
                    E' = E.add (toE R8.x R8.y (zs j))) ↔ ∃ R8, v = .ok () ∧ ECPoint.eightInvEight curve R = .ok (some R8) ∧
                    E' = E.add (toE R8.x R8.y (zs j)) := by
                  constructor
                  · rintro ⟨R', R8, ⟨rfl, hv⟩, h⟩; exact ⟨R8, hv, h⟩
                  · rintro ⟨R8, hv, h⟩; exact ⟨R, R8, ⟨rfl, hv⟩, h⟩
                rw [key3]
                generalize ECPoint.eightInvEight curve R = w
                generalize hadd : (fun R8 : ECPoint => E.add (toE R8.x R8.y (zs j))) = add
                have hadd' : ∀ R8 : ECPoint, E.add (toE R8.x R8.y (zs j)) = add R8 := fun R8 => by rw [← hadd]
                simp only [hadd']
                rcases v with u | er | _
                · rcases w with (_ | R8) | _ | _ <;> simp [eq_comm]
                · simp
                · simp
    | _ => simp

/-- the running sum of round 3: each peer adds a representation of eight times an eighth of its point -/
theorem r3Loop_ok {e : Env} {zs : Nat → Int} {G : ECPoint} {p : Party} : ∀ {l : List Nat} {E E' : Ed.Ext},
    forJ (r3Step e zs G p) l E = (.ok (), E') → ∀ j ∈ l, j ≠ p.index → ∃ R, Good3 e G p j R
  | [], _, _, _ => by simp
  | j :: t, E, E', h => by
    obtain ⟨s1, h1, h2⟩ := forJ_cons_ok.mp h
    intro k hk hki
    rcases List.mem_cons.mp hk with rfl | hk
    · rcases (r3Step_ok_iff _ _ _ _ _ _ _).mp h1 with ⟨h3, -⟩ | ⟨-, R, -, h3, -⟩
      · exact absurd h3 hki
      · exact ⟨R, h3⟩
    · exact r3Loop_ok h2 k hk hki

/-! ### final -/

/-- The scalar share of peer `j`. -/
def sigmaOf (p : Party) (j : Nat) : Option Bytes :=
  match parseWireMsg (p.m3.getD j []) with
  | some (.sg3 s) => some s
  | _ => none

/-- The sum after adding the shares of `l`. -/
def sumOf (p : Party) (l : List Nat) (s0 : Bytes) : Bytes :=
  l.foldl (fun s j => if j = p.index then s
    else Ed.scMulAdd s (Ed.bigIntToEncodedBytes (some 1)) (Ed.bigIntToEncodedBytes (some (beNat ((sigmaOf p j).getD []))))) s0

theorem finalStep_const (s : Party × Option Bytes) (j : Nat) :
    ∃ ok, (finalStep s j).2.1 = { s.1 with ok := ok } := by
  unfold finalStep
  simp only
  split
  · exact ⟨_, rfl⟩
  · split
    · exact ⟨_, rfl⟩
    · split <;> exact ⟨_, rfl⟩
    · exact ⟨_, rfl⟩

theorem sumOf_ok (p : Party) (ok : List Bool) (l : List Nat) (s0 : Bytes) : sumOf { p with ok := ok } l s0 = sumOf p l s0 := rfl

/-- The final loop from a non-nil own share. -/
theorem finalLoop_some : ∀ (l : List Nat) (p : Party) (s0 : Bytes) (q : Party × Option Bytes),
    forJ finalStep l (p, some s0) = (.ok (), q) ↔
      (∀ j ∈ l, j ≠ p.index → ∃ s, sigmaOf p j = some s) ∧ ∃ ok, q = ({ p with ok := ok }, some (sumOf p l s0)) ∧
        ok = l.foldl (fun o j => o.set j true) p.ok
  | [], p, s0, q => by
    simp only [forJ, Prod.mk.injEq, true_and, List.not_mem_nil, false_implies, implies_true, sumOf, List.foldl_nil]
    constructor
    · rintro rfl; exact ⟨_, rfl, rfl⟩
    · rintro ⟨ok, rfl, rfl⟩; rfl
  | j :: t, p, s0, q => by
    rw [forJ_cons_ok]
    by_cases hj : j = p.index
    · have hs : finalStep (p, some s0) j = (.ok (), ({ p with ok := p.ok.set j true }, some s0)) := by
        simp [finalStep, hj]
      rw [hs]
      simp only [Prod.mk.injEq, true_and, exists_eq_left']
      rw [finalLoop_some t]
      simp only [sumOf, sigmaOf, List.foldl_cons, hj, if_true, List.mem_cons, forall_eq_or_imp, ne_eq,
        not_true_eq_false, false_implies, true_and]
    · cases hp : parseWireMsg (p.m3.getD j []) with
      | none =>
        have hs : finalStep (p, some s0) j = (.err .parse, ({ p with ok := p.ok.set j true }, some s0)) := by
          simp only [finalStep, hj, if_false, hp]
        rw [hs]
        simp only [Prod.mk.injEq, reduceCtorEq, false_and, exists_false, false_iff, not_and]
        intro h
        obtain ⟨s, hs⟩ := h j (by simp) hj
        simp only [sigmaOf, hp] at hs; cases hs
      | some c =>
        by_cases hc : ∃ s, c = .sg3 s
        · obtain ⟨s, rfl⟩ := hc
          have hs : finalStep (p, some s0) j = (.ok (), ({ p with ok := p.ok.set j true }, some
              (Ed.scMulAdd s0 (Ed.bigIntToEncodedBytes (some 1)) (Ed.bigIntToEncodedBytes (some (beNat s)))))) := by
            simp only [finalStep, hj, if_false, hp]
          rw [hs]
          simp only [Prod.mk.injEq, true_and, exists_eq_left']
          rw [finalLoop_some t]
          have h0 : sigmaOf p j = some s := by simp only [sigmaOf, hp]
          have h1 : sumOf p (j :: t) s0 = sumOf p t (Ed.scMulAdd s0 (Ed.bigIntToEncodedBytes (some 1))
              (Ed.bigIntToEncodedBytes (some (beNat s)))) := by
            simp only [sumOf, List.foldl_cons, hj, if_false, h0, Option.getD_some]
          rw [h1]
          constructor
          · rintro ⟨g1, ok, rfl, g2⟩
            refine ⟨?_, ok, rfl, g2⟩
            intro k hk hki
            rcases List.mem_cons.mp hk with rfl | hk
            · exact ⟨s, h0⟩
            · exact g1 k hk hki
          · rintro ⟨g1, ok, rfl, g2⟩
            exact ⟨fun k hk => g1 k (by simp [hk]), ok, rfl, g2⟩
        · have hs : finalStep (p, some s0) j = (.panic, ({ p with ok := p.ok.set j true }, some s0)) := by
            simp only [finalStep, hj, if_false, hp]
            cases c <;> first | rfl | exact absurd ⟨_, rfl⟩ hc
          rw [hs]
          simp only [Prod.mk.injEq, reduceCtorEq, false_and, exists_false, false_iff, not_and]
          intro h
          obtain ⟨s, hs⟩ := h j (by simp) hj
          simp only [sigmaOf, hp] at hs
          cases c <;> first | exact absurd ⟨_, rfl⟩ hc | (simp at hs)

end Tss.Onsign
