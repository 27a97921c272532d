import Verif.Lemmas.Keygen
/-! Closed forms of the round loops and the invariant of reachable parties. -/
namespace Tss.Keygen
open Tss Text Wire

/-! ### round 2 -/

/-- state change of a successful round-2 iteration -/
def r2upd (p : Party) (j : Nat) : Party :=
  match parseWireMsg (p.m1.getD j []) with
  | some (.kg1 c) => { p with V := p.V.set j c }
  | _ => p

theorem r2Step_ok_iff (p : Party) (j : Nat) (p' : Party) :
    r2Step p j = (.ok (), p') ↔ (∃ c, parseWireMsg (p.m1.getD j []) = some (.kg1 c)) ∧ p' = r2upd p j := by
  unfold r2Step r2upd
  cases h : parseWireMsg (p.m1.getD j []) with
  | none => simp
  | some c => cases c <;> simp [eq_comm]

/-- fold of round-2 iterations: everything but V is unchanged -/
theorem r2fold (l : List Nat) (p : Party) :
    ∃ V, l.foldl r2upd p = { p with V := V } ∧ V.length = p.V.length ∧
      ∀ k, V.getD k [] = if k ∈ l ∧ k < p.V.length then
        (match parseWireMsg (p.m1.getD k []) with | some (.kg1 c) => c | _ => p.V.getD k []) else p.V.getD k [] := by
  induction l generalizing p with
  | nil => exact ⟨p.V, rfl, rfl, by simp⟩
  | cons j t ih =>
    obtain ⟨V, h1, h2, h3⟩ := ih (r2upd p j)
    have hm : (r2upd p j).m1 = p.m1 := by unfold r2upd; split <;> rfl
    have hl : (r2upd p j).V.length = p.V.length := by unfold r2upd; split <;> simp
    refine ⟨V, ?_, by rw [h2, hl], ?_⟩
    · rw [List.foldl_cons, h1]
      unfold r2upd; split <;> rfl
    · intro k
      rw [h3, hm, hl]
      have hVk : (r2upd p j).V.getD k [] = if j = k ∧ k < p.V.length then
          (match parseWireMsg (p.m1.getD k []) with | some (.kg1 c) => c | _ => p.V.getD k []) else p.V.getD k [] := by
        unfold r2upd
        by_cases hjk : j = k
        · subst hjk
          split
          · next c hc => simp only [getD_set]
          · next hc => 
            by_cases hlt : j < p.V.length <;> simp only [hlt, and_true, and_false, if_true, if_false]
        · split
          · simp only [getD_set, hjk, false_and, if_false]
          · simp only [hjk, false_and, if_false]
      rw [hVk]
      by_cases hkt : k ∈ t
      · by_cases hlt : k < p.V.length
        · simp only [hkt, hlt, and_self, if_true, List.mem_cons, or_true, and_true]
          by_cases hjk : j = k
          · simp only [hjk, if_true]
            cases parseWireMsg (p.m1.getD k []) with
            | none => rfl
            | some c => cases c <;> rfl
          · simp only [hjk, if_false]
        · simp [hlt]
      · by_cases hjk : j = k
        · subst hjk; simp [hkt]
        · have : ¬ (k = j) := fun e => hjk e.symm
          simp [hkt, hjk, this]

theorem r2Loop_ok_iff (l : List Nat) (p p' : Party) :
    forJ r2Step l p = (.ok (), p') ↔
      (∀ j ∈ l, ∃ c, parseWireMsg (p.m1.getD j []) = some (.kg1 c)) ∧ p' = l.foldl r2upd p := by
  have hm : ∀ q i, (r2upd q i).m1 = q.m1 := by intro q i; unfold r2upd; split <;> rfl
  constructor
  · intro h
    refine ⟨?_, forJ_ok_fold (fun s j s' h => ((r2Step_ok_iff s j s').mp h).2) h⟩
    induction l generalizing p with
    | nil => simp
    | cons j t ih =>
      obtain ⟨s1, h1, h2⟩ := forJ_cons_ok.mp h
      obtain ⟨h3, rfl⟩ := (r2Step_ok_iff _ _ _).mp h1
      intro k hk
      rcases List.mem_cons.mp hk with rfl | hk
      · exact h3
      · have := ih _ h2 k hk
        rwa [hm] at this
  · rintro ⟨h, rfl⟩
    exact forJ_ok_of r2upd (fun s j => ∃ c, parseWireMsg (s.m1.getD j []) = some (.kg1 c))
      (fun s j hs => (r2Step_ok_iff _ _ _).mpr ⟨hs, rfl⟩) (fun s i j hs => by rwa [hm]) l p h

/-! ### round 3 -/

/-- What a round-2 message of a peer contains, after the curve checks. -/
structure Opening where
  X : ECPoint
  A : ECPoint
  ssid : Bytes
  srid : Bytes
  u : Bytes

/-- Decode a round-2 message. -/
def opening (c : Curve) (b : Bytes) : Option Opening :=
  match parseWireMsg b with
  | some (.kg2 ssid srid xx xy ax ay u _ _ _) =>
    match ECPoint.new c (beNat ax) (beNat ay), ECPoint.new c (beNat xx) (beNat xy) with
    | some A, some X => some ⟨X, A, ssid, srid, u⟩
    | _, _ => none
  | _ => none

/-- the opening of party `j` is acceptable -/
def Accepts (e : Env) (p : Party) (j : Nat) (o : Opening) : Prop :=
  opening e.c (p.m2.getD j []) = some o ∧ o.ssid = p.ssid ∧
    commitHash e.H p.ssid j o.srid o.X o.A o.u = p.V.getD j []

/-- state change of a successful round-3 iteration -/
def r3upd (e : Env) (p : Party) (j : Nat) : Party :=
  if j = p.index then p
  else match opening e.c (p.m2.getD j []) with
    | some o => { p with
        payload := p.payload.set j (some ⟨o.A, o.ssid, o.srid, o.u⟩)
        save := { p.save with pubXj := p.save.pubXj.set j (some o.X) }
        srid := xorBytes p.srid o.srid }
    | none => p

theorem r3Step_ok_iff (e : Env) (p : Party) (j : Nat) (p' : Party) :
    r3Step e p j = (.ok (), p') ↔ (j ≠ p.index → ∃ o, Accepts e p j o) ∧ p' = r3upd e p j := by
  unfold r3Step r3upd Accepts opening
  by_cases hj : j = p.index
  · simp [hj, eq_comm]
  · simp only [hj, if_false, ne_eq, not_false_eq_true, forall_true_left]
    cases hp : parseWireMsg (p.m2.getD j []) with
    | none => simp
    | some c =>
      cases c with
      | kg2 ssid srid xx xy ax ay u pn ps pt =>
        simp only
        cases hA : ECPoint.new e.c (beNat ax) (beNat ay) with
        | none => simp
        | some A =>
          simp only
          cases hX : ECPoint.new e.c (beNat xx) (beNat xy) with
          | none => simp
          | some X =>
            simp only [Option.some.injEq, exists_eq_left']
            by_cases h1 : ssid = p.ssid
            · simp only [h1, not_true_eq_false, if_false, true_and]
              by_cases h2 : commitHash e.H p.ssid j srid X A u = p.V.getD j []
              · simp only [h2, not_true_eq_false, if_false, true_and, Prod.mk.injEq, eq_comm]
              · simp only [h2, not_false_eq_true, if_true, Prod.mk.injEq, reduceCtorEq, false_and]
            · simp [h1]
      | _ => simp

theorem r3upd_const (e : Env) (p : Party) (j : Nat) :
    (r3upd e p j).m2 = p.m2 ∧ (r3upd e p j).V = p.V ∧ (r3upd e p j).ssid = p.ssid ∧ (r3upd e p j).index = p.index := by
  unfold r3upd
  split
  · exact ⟨rfl, rfl, rfl, rfl⟩
  · split <;> exact ⟨rfl, rfl, rfl, rfl⟩

theorem accepts_upd (e : Env) (p : Party) (i j : Nat) (o : Opening) :
    Accepts e (r3upd e p i) j o ↔ Accepts e p j o := by
  obtain ⟨h1, h2, h3, -⟩ := r3upd_const e p i
  unfold Accepts
  rw [h1, h2, h3]

theorem r3Loop_ok_iff (e : Env) (l : List Nat) (p p' : Party) :
    forJ (r3Step e) l p = (.ok (), p') ↔
      (∀ j ∈ l, j ≠ p.index → ∃ o, Accepts e p j o) ∧ p' = l.foldl (r3upd e) p := by
  constructor
  · intro h
    refine ⟨?_, forJ_ok_fold (fun s j s' h => ((r3Step_ok_iff e s j s').mp h).2) h⟩
    induction l generalizing p with
    | nil => simp
    | cons j t ih =>
      obtain ⟨s1, h1, h2⟩ := forJ_cons_ok.mp h
      obtain ⟨h3, rfl⟩ := (r3Step_ok_iff _ _ _ _).mp h1
      intro k hk hki
      rcases List.mem_cons.mp hk with rfl | hk
      · exact h3 hki
      · obtain ⟨o, ho⟩ := ih _ h2 k hk (by rwa [(r3upd_const e p j).2.2.2])
        exact ⟨o, (accepts_upd _ _ _ _ _).mp ho⟩
  · rintro ⟨h, rfl⟩
    exact forJ_ok_of (r3upd e) (fun s j => j ≠ s.index → ∃ o, Accepts e s j o)
      (fun s j hs => (r3Step_ok_iff _ _ _ _).mpr ⟨hs, rfl⟩)
      (fun s i j hs hj => by
        obtain ⟨o, ho⟩ := hs (by rwa [(r3upd_const e s i).2.2.2] at hj)
        exact ⟨o, (accepts_upd _ _ _ _ _).mpr ho⟩) l p h

/-- contribution of a peer to the session randomness -/
def sridOf (c : Curve) (p : Party) (j : Nat) : Bytes :=
  match opening c (p.m2.getD j []) with
  | some o => o.srid
  | none => []

/-- the session randomness after folding in the contributions of `l` -/
def sridFold (c : Curve) (p : Party) (l : List Nat) : Bytes :=
  l.foldl (fun acc j => if j = p.index then acc else xorBytes acc (sridOf c p j)) p.srid

/-- fold of round-3 iterations, when all openings decode -/
theorem r3fold (e : Env) (l : List Nat) (p : Party) (h : ∀ j ∈ l, j ≠ p.index → ∃ o, opening e.c (p.m2.getD j []) = some o) :
    ∃ pay pub, l.foldl (r3upd e) p =
        { p with payload := pay, save := { p.save with pubXj := pub }, srid := sridFold e.c p l } ∧
      pay.length = p.payload.length ∧ pub.length = p.save.pubXj.length ∧
      (∀ k, pay.getD k none = if k ∈ l ∧ k ≠ p.index ∧ k < p.payload.length then
        (opening e.c (p.m2.getD k [])).map (fun o => ⟨o.A, o.ssid, o.srid, o.u⟩) else p.payload.getD k none) ∧
      (∀ k, pub.getD k none = if k ∈ l ∧ k ≠ p.index ∧ k < p.save.pubXj.length then
        (opening e.c (p.m2.getD k [])).map (fun o => o.X) else p.save.pubXj.getD k none) := by
  induction l generalizing p with
  | nil => exact ⟨p.payload, p.save.pubXj, rfl, rfl, rfl, by simp, by simp⟩
  | cons j t ih =>
    obtain ⟨c1, c2, c3, c4⟩ := r3upd_const e p j
    obtain ⟨pay, pub, h1, h2, h3, h4, h5⟩ := ih (r3upd e p j) (by
      intro k hk hki; rw [c1]; exact h k (by simp [hk]) (by rwa [c4] at hki))
    by_cases hj : j = p.index
    · have hu : r3upd e p j = p := by simp [r3upd, hj]
      rw [hu] at h1 h2 h3 h4 h5
      refine ⟨pay, pub, ?_, h2, h3, ?_, ?_⟩
      · rw [List.foldl_cons, hu, h1]
        simp [sridFold, hj]
      · intro k
        rw [h4]
        by_cases hk : k = j
        · subst hk; simp [hj]
        · simp [hk]
      · intro k
        rw [h5]
        by_cases hk : k = j
        · subst hk; simp [hj]
        · simp [hk]
    · obtain ⟨o, ho⟩ := h j (by simp) hj
      have hu : r3upd e p j = { p with
          payload := p.payload.set j (some ⟨o.A, o.ssid, o.srid, o.u⟩)
          save := { p.save with pubXj := p.save.pubXj.set j (some o.X) }
          srid := xorBytes p.srid o.srid } := by
        simp only [r3upd, hj, if_false, ho]
      refine ⟨pay, pub, ?_, ?_, ?_, ?_, ?_⟩
      · have hs : sridFold e.c (r3upd e p j) t = sridFold e.c p (j :: t) := by
          rw [hu]
          simp only [sridFold, List.foldl_cons, hj, if_false]
          have : sridOf e.c p j = o.srid := by simp only [sridOf, ho]
          rw [this]
          rfl
        rw [List.foldl_cons, h1, hs, hu]
      · rw [h2, hu]; simp
      · rw [h3, hu]; simp
      · intro k
        rw [h4, hu]
        simp only [List.length_set, getD_set]
        by_cases hk : j = k
        · subst hk
          by_cases hl : j < p.payload.length
          · simp [hj, hl, ho, -List.getD_eq_getElem?_getD]
          · simp [hl]
        · have : ¬ (k = j) := fun e => hk e.symm
          simp only [List.mem_cons, this, false_or, hk, false_and, if_false]
      · intro k
        rw [h5, hu]
        simp only [List.length_set, getD_set]
        by_cases hk : j = k
        · subst hk
          by_cases hl : j < p.save.pubXj.length
          · simp [hj, hl, ho, -List.getD_eq_getElem?_getD]
          · simp [hl]
        · have : ¬ (k = j) := fun e => hk e.symm
          simp only [List.mem_cons, this, false_or, hk, false_and, if_false]

/-! ### round 4 -/

theorem r4Step_const (e : Env) (p : Party) (j : Nat) : (r4Step e p j).2 = p := by
  unfold r4Step
  split
  · rfl
  · split
    · rfl
    · split
      · simp only
        split
        · split <;> rfl
        · rfl
      · rfl

/-- the round-4 check for one peer -/
def Proves (e : Env) (p : Party) (j : Nat) : Prop :=
  ∃ z ms pm X pl, parseWireMsg (p.m3.getD j []) = some (.kg3 z ms pm) ∧ p.save.pubXj.getD j none = some X ∧
    p.payload.getD j none = some pl ∧
    Schnorr.Verify e.c (beNat z) pl.commitedA X (challenge e p.ssid p.srid j X pl.commitedA) = .ok true

theorem r4Step_ok_iff (e : Env) (p : Party) (j : Nat) (p' : Party) :
    r4Step e p j = (.ok (), p') ↔ (j ≠ p.index → Proves e p j) ∧ p' = p := by
  have hc := r4Step_const e p j
  constructor
  · intro h
    refine ⟨?_, by rw [h] at hc; exact hc⟩
    intro hj
    unfold r4Step at h
    simp only [hj, if_false] at h
    unfold Proves
    cases hp : parseWireMsg (p.m3.getD j []) with
    | none => rw [hp] at h; simp at h
    | some c =>
      rw [hp] at h
      simp only at h
      cases hX : p.save.pubXj.getD j none with
      | none => rw [hX] at h; simp at h
      | some X =>
        cases hpl : p.payload.getD j none with
        | none => rw [hX, hpl] at h; simp at h
        | some pl =>
          rw [hX, hpl] at h
          simp only at h
          cases c with
          | kg3 z ms pm =>
            simp only at h
            cases hv : Schnorr.Verify e.c (beNat z) pl.commitedA X (challenge e p.ssid p.srid j X pl.commitedA) with
            | ok b =>
              cases b with
              | true => exact ⟨z, ms, pm, X, pl, rfl, rfl, rfl, hv⟩
              | false => simp [hv] at h
            | err e => simp [hv] at h
            | panic => simp [hv] at h
          | _ => simp at h
  · rintro ⟨h, rfl⟩
    by_cases hj : j = p'.index
    · simp [r4Step, hj]
    · obtain ⟨z, ms, pm, X, pl, h1, h2, h3, h4⟩ := h hj
      unfold r4Step
      simp only [hj, if_false]
      rw [h1, h2, h3]
      simp only [h4]

theorem r4Loop_ok_iff (e : Env) (l : List Nat) (p p' : Party) :
    forJ (r4Step e) l p = (.ok (), p') ↔ (∀ j ∈ l, j ≠ p.index → Proves e p j) ∧ p' = p := by
  induction l generalizing p with
  | nil => simp [forJ, eq_comm]
  | cons j t ih =>
    rw [forJ_cons_ok]
    constructor
    · rintro ⟨s1, h1, h2⟩
      obtain ⟨h3, rfl⟩ := (r4Step_ok_iff _ _ _ _).mp h1
      obtain ⟨h4, h5⟩ := (ih s1).mp h2
      refine ⟨?_, h5⟩
      intro k hk hki
      rcases List.mem_cons.mp hk with rfl | hk
      · exact h3 hki
      · exact h4 k hk hki
    · rintro ⟨h, rfl⟩
      exact ⟨p', (r4Step_ok_iff _ _ _ _).mpr ⟨h j (by simp), rfl⟩,
        (ih p').mpr ⟨fun k hk => h k (by simp [hk]), rfl⟩⟩

theorem sumPub_lawful {G : Type} [AddCommGroup G] {c : Curve} (L : Lawful c G) (j : Nat) (acc : ECPoint) (hacc : c.On acc)
    (l : List (Option ECPoint)) (s : ECPoint) (hl : ∀ X, some X ∈ l → c.On X) (h : sumPub c j acc l = .ok s) :
    (∀ o ∈ l, o ≠ none) ∧ c.On s ∧
      L.val s = L.val acc + (l.map fun o => match o with | some X => L.val X | none => 0).sum := by
  induction l generalizing j acc with
  | nil => simp only [sumPub, Res.ok.injEq] at h; subst h; simp [hacc]
  | cons o t ih =>
    cases o with
    | none => simp [sumPub] at h
    | some X =>
      have hX := hl X (by simp)
      simp only [sumPub, L.add_pt hacc hX] at h
      obtain ⟨h1, h2, h3⟩ := ih _ _ (L.on_pt _) (fun Y hY => hl Y (by simp [hY])) h
      refine ⟨?_, h2, ?_⟩
      · intro o ho
        rcases List.mem_cons.mp ho with rfl | ho
        · simp
        · exact h1 o ho
      · rw [h3, L.val_pt, List.map_cons, List.sum_cons, add_assoc]

theorem sumPub_ok {G : Type} [AddCommGroup G] {c : Curve} (L : Lawful c G) (j : Nat) (acc : ECPoint) (hacc : c.On acc)
    (l : List (Option ECPoint)) (hl : ∀ o ∈ l, ∃ X, o = some X ∧ c.On X) :
    ∃ s, sumPub c j acc l = .ok s ∧ (l ≠ [] → s = L.pt (L.val s)) := by
  induction l generalizing j acc with
  | nil => exact ⟨acc, rfl, by simp⟩
  | cons o t ih =>
    obtain ⟨X, rfl, hX⟩ := hl o (by simp)
    simp only [sumPub, L.add_pt hacc hX]
    obtain ⟨s, h1, h2⟩ := ih (j + 1) _ (L.on_pt (L.val acc + L.val X)) (fun o ho => hl o (by simp [ho]))
    refine ⟨s, h1, fun _ => ?_⟩
    cases t with
    | nil =>
      simp only [sumPub, Res.ok.injEq] at h1
      subst h1; simp
    | cons a t => exact h2 (by simp)

end Tss.Keygen
