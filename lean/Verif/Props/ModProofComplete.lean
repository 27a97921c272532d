import Verif.Props.ModProof
import Mathlib.Tactic.NormNum.Prime
import Mathlib.Tactic.NormNum.LegendreSymbol
/-! C40, C41: honest modulus proofs, their serialization. -/
namespace Tss.ModProof
open Tss Common

theorem items_map {n p q w e : Int} {invN : Option Int} {G : Int → Item} : ∀ {ys : List Int},
    (∀ y ∈ ys, item n p q w e invN y = .ok (G y)) → items n p q w e invN ys = .ok (ys.map G)
  | [], _ => rfl
  | y :: ys, h => by
    simp only [items]
    rw [h y (by simp), items_map (ys := ys) fun z hz => h z (by simp [hz])]
    rfl

variable {P Q : ℕ}

theorem Blum.one_lt (h : Blum P Q) : 1 < P * Q := by
  have := h.hP.two_le; have := h.hQ.two_le; nlinarith

theorem Blum.odd (h : Blum P Q) : ((P * Q : ℕ) : Int) % 2 = 1 := by
  have h1 := h.p3; have h2 := h.q3
  have : (P * Q) % 2 = 1 := by rw [Nat.mul_mod, show P % 2 = 1 by omega, show Q % 2 = 1 by omega]
  omega

theorem gcd_parts {y : Int} : Int.gcd y ((P * Q : ℕ) : Int) = 1 ↔ Int.gcd y P = 1 ∧ Int.gcd y Q = 1 := by
  unfold Int.gcd
  simp only [Int.natAbs_natCast]
  exact Nat.coprime_mul_iff_right

/-- One honest iteration with a challenge that is a unit. -/
theorem Blum.item_good (h : Blum P Q) (hg : Int.gcd ((P * Q : ℕ) : Int) (phi P Q) = 1) {w y : Int}
    (hw : jacobiSym w (P * Q) = -1) (hy0 : 0 ≤ y) (hy1 : y < ((P * Q : ℕ) : Int)) (hy : Int.gcd y ((P * Q : ℕ) : Int) = 1) :
    ∃ (x z : Int) (a b : Bool),
      item ((P * Q : ℕ) : Int) P Q w (expo P Q) (modInverse ((P * Q : ℕ) : Int) (phi P Q)) y = .ok ⟨some x, some z, a, b⟩ ∧
      (0 < x ∧ x < ((P * Q : ℕ) : Int)) ∧ (0 < z ∧ z < ((P * Q : ℕ) : Int)) ∧
      spec.RootEq ((P * Q : ℕ) : Int) y z ∧ spec.FourthEq ((P * Q : ℕ) : Int) w y x a b := by
  have hN1 := h.one_lt
  have hN0 : (0 : Int) < ((P * Q : ℕ) : Int) := by omega
  obtain ⟨gy1, gy2⟩ := gcd_parts.mp hy
  have h3 := h.p3; have h3' := h.q3
  have hphi : phi (P : Int) Q ≠ 0 := by rw [h.phi_eq]; have := h.m_pos; omega
  obtain ⟨v, hv⟩ := Option.isSome_iff_exists.mp (modInverse_isSome.mpr hg)
  obtain ⟨hv0, _, hv2⟩ := modInverse_spec hphi hv
  rcases pick_spec (n := ((P * Q : ℕ) : Int)) (w := w) (y := y) (P := P) (Q := Q) (by omega) (by omega) with
    ⟨a, b, hpk, j1, j2⟩ | ⟨_, hno⟩
  swap
  · obtain ⟨a, b, hab⟩ := h.exists_twist hw gy1 gy2
    exact absurd hab (hno a b)
  have hexpo : 0 ≤ expo (P : Int) Q := by rw [h.expo_eq]; omega
  refine ⟨twist ((P * Q : ℕ) : Int) w y a b ^ (expo (P : Int) Q).toNat % ((P * Q : ℕ) : Int),
    y ^ v.toNat % ((P * Q : ℕ) : Int), a, b, ?_, ?_, ?_, ?_, ?_⟩
  · unfold item
    rw [hpk]
    simp only [hv]
    unfold bigExp
    rw [if_neg (by omega), if_neg (by omega), if_neg (by omega), if_neg (by omega)]
  · have h4 := h.fourth j1 j2
    refine ⟨?_, Int.emod_lt_of_pos _ hN0⟩
    rcases (Int.emod_nonneg (twist ((P * Q : ℕ) : Int) w y a b ^ (expo (P : Int) Q).toNat) (by omega : ((P * Q : ℕ) : Int) ≠ 0)).lt_or_eq with g | g
    · exact g
    · exfalso
      have g0 : twist ((P * Q : ℕ) : Int) w y a b ^ (expo (P : Int) Q).toNat ≡ 0 [ZMOD ((P * Q : ℕ) : Int)] := by
        unfold Int.ModEq; rw [← g]; simp
      have g1 : (0 : Int) ^ 4 ≡ twist ((P * Q : ℕ) : Int) w y a b [ZMOD ((P * Q : ℕ) : Int)] := (g0.symm.pow 4).trans h4
      have g2 : (0 : Int) ≡ twist ((P * Q : ℕ) : Int) w y a b [ZMOD (P : Int)] := by
        have := g1.of_dvd (Int.natCast_dvd_natCast.mpr (Dvd.intro Q rfl : P ∣ P * Q))
        simpa using this
      rw [jacobiSym.mod_left, ← g2, ← jacobiSym.mod_left, jacobiSym.zero_left h.hP.one_lt] at j1
      simp at j1
  · have hroot : (y ^ v.toNat) ^ (P * Q) ≡ y [ZMOD ((P * Q : ℕ) : Int)] :=
      nth_root hv0 (by rw [h.totient]; exact hv2) hy
    refine ⟨?_, Int.emod_lt_of_pos _ hN0⟩
    rcases (Int.emod_nonneg (y ^ v.toNat) (by omega : ((P * Q : ℕ) : Int) ≠ 0)).lt_or_eq with g | g
    · exact g
    · exfalso
      have g0 : y ^ v.toNat ≡ 0 [ZMOD ((P * Q : ℕ) : Int)] := by unfold Int.ModEq; rw [← g]; simp
      have g1 := (g0.symm.pow (P * Q)).trans hroot
      rw [zero_pow (by omega)] at g1
      have : ((P * Q : ℕ) : Int) ∣ y := (Int.modEq_zero_iff_dvd).mp g1.symm
      have hd := Int.dvd_coe_gcd this (Int.dvd_refl _)
      rw [hy] at hd
      have := Int.le_of_dvd (by decide) hd
      omega
  · have hroot : (y ^ v.toNat) ^ (P * Q) ≡ y [ZMOD ((P * Q : ℕ) : Int)] :=
      nth_root hv0 (by rw [h.totient]; exact hv2) hy
    unfold spec.RootEq
    rw [Int.toNat_natCast]
    exact ((Int.mod_modEq _ _).pow _).trans hroot
  · unfold spec.FourthEq
    exact (((Int.mod_modEq _ _).pow _).trans (h.fourth j1 j2)).trans (twist_modEq _ _ _ _ _)

/-- One honest iteration with a challenge that is not a unit: nothing is stored. -/
theorem Blum.item_bad (h : Blum P Q) {w y e : Int} {invN : Option Int} (hy : Int.gcd y ((P * Q : ℕ) : Int) ≠ 1) :
    item ((P * Q : ℕ) : Int) P Q w e invN y = .ok ⟨none, none, false, false⟩ := by
  have h3 := h.p3; have h3' := h.q3
  have hy' : Int.gcd y P ≠ 1 ∨ Int.gcd y Q ≠ 1 := by
    by_contra hc
    push Not at hc
    exact hy (gcd_parts.mpr hc)
  unfold item
  rcases pick_spec (n := ((P * Q : ℕ) : Int)) (w := w) (y := y) (P := P) (Q := Q) (by omega) (by omega) with
    ⟨a, b, _, j1, j2⟩ | ⟨hpk, _⟩
  · exact absurd ⟨j1, j2⟩ (h.no_twist hy' a b)
  · rw [hpk]

/-- C40 (completeness, exactly). For N = PQ with distinct Blum primes, N coprime to φ(N), and W of Jacobi symbol -1: the
prover returns a proof without error, and the verifier (which must not take N for a prime) accepts it, under every
schedule, exactly when all challenges are units modulo N. -/
theorem C40_complete (h : Blum P Q) (hg : Int.gcd ((P * Q : ℕ) : Int) (phi P Q) = 1) (H : Bytes → Bytes)
    (prime : Int → Bool) (hprime : prime ((P * Q : ℕ) : Int) = false) (session : Bytes) (w : Int) (hw0 : 0 ≤ w)
    (hw1 : w < ((P * Q : ℕ) : Int)) (hw : jacobiSym w (P * Q) = -1)
    (ys : List Int) (hys : spec.Challenges H session w ((P * Q : ℕ) : Int) ys) :
    ∃ pf, proveWith H session ((P * Q : ℕ) : Int) P Q w = .ok pf ∧
      ∀ order, spec.Schedule order →
        (Verify H prime session ((P * Q : ℕ) : Int) (some pf) order = .ok true ↔
          ∀ y ∈ ys, Int.gcd y ((P * Q : ℕ) : Int) = 1) := by
  have hN1 := h.one_lt
  have hN0 : (0 : Int) < ((P * Q : ℕ) : Int) := by omega
  have hphi : phi (P : Int) Q ≠ 0 := by rw [h.phi_eq]; have := h.m_pos; omega
  have hgood := fun (y : Int) (hy : 0 ≤ y ∧ y < ((P * Q : ℕ) : Int) ∧ Int.gcd y ((P * Q : ℕ) : Int) = 1) =>
    h.item_good hg hw hy.1 hy.2.1 hy.2.2
  choose! fx fz fa fb hf using hgood
  have hmem : ∀ y ∈ ys, item ((P * Q : ℕ) : Int) P Q w (expo P Q) (modInverse ((P * Q : ℕ) : Int) (phi P Q)) y =
      .ok (if Int.gcd y ((P * Q : ℕ) : Int) = 1 then ⟨some (fx y), some (fz y), fa y, fb y⟩ else ⟨none, none, false, false⟩) := by
    intro y hy
    have hr := chal_range hN0 hys hy
    by_cases hu : Int.gcd y ((P * Q : ℕ) : Int) = 1
    · rw [if_pos hu]; exact (hf y ⟨hr.1, hr.2, hu⟩).1
    · rw [if_neg hu]; exact h.item_bad hu
  have hitems := items_map hmem
  generalize hI : (ys.map fun y => if Int.gcd y ((P * Q : ℕ) : Int) = 1 then (⟨some (fx y), some (fz y), fa y, fb y⟩ : Item)
    else ⟨none, none, false, false⟩) = its at hitems
  refine ⟨⟨some w, its.map Item.x, some (packBits (its.map Item.a) : Nat), some (packBits (its.map Item.b) : Nat),
          its.map Item.z⟩, ?_, ?_⟩
  · unfold proveWith
    rw [genY_eq (by omega) hys]
    simp only
    rw [if_neg hphi, hitems]
  · intro order ho
    by_cases hall : ∀ y ∈ ys, Int.gcd y ((P * Q : ℕ) : Int) = 1
    swap
    · rw [iff_false_intro hall, iff_false]
      push Not at hall
      obtain ⟨y, hy, hyu⟩ := hall
      rw [(C40_nil_refused H prime session _ _ order (Or.inr (Or.inr (Or.inr (Or.inl ?_))))).2]
      · simp
      · simp only
        rw [← hI, List.map_map, List.mem_map]
        exact ⟨y, hy, by rw [Function.comp_apply, if_neg hyu]⟩
    rw [iff_true_intro hall, iff_true]
    have hI' : its = ys.map fun y => ⟨some (fx y), some (fz y), fa y, fb y⟩ := by
      rw [← hI]
      exact List.map_congr_left fun y hy => by rw [if_pos (hall y hy)]
    have e1 : its.map Item.x = (ys.map fx).map some := by rw [hI']; simp
    have e2 : its.map Item.z = (ys.map fz).map some := by rw [hI']; simp
    have e3 : its.map Item.a = ys.map fa := by rw [hI']; simp
    have e4 : its.map Item.b = ys.map fb := by rw [hI']; simp
    rw [e1, e2, e3, e4]
    have hl := hys.1
    refine (C40_verify_iff H prime session _ w _ _ (ys.map fx) (ys.map fz) (by simp [hl]) (by simp [hl]) order ho h.odd
      ys hys).mpr ⟨?_, hw1, ?_, ?_, ?_, ?_, ?_, hprime, ?_⟩
    · rcases hw0.lt_or_eq with g | g
      · exact g
      · rw [← g, jacobiSym.zero_left hN1] at hw; simp at hw
    · rw [Int.toNat_natCast, hw]; decide
    · intro z hz
      obtain ⟨y, hy, rfl⟩ := List.mem_map.mp hz
      have hr := chal_range hN0 hys hy
      exact (hf y ⟨hr.1, hr.2, hall y hy⟩).2.2.1
    · intro x hx
      obtain ⟨y, hy, rfl⟩ := List.mem_map.mp hx
      have hr := chal_range hN0 hys hy
      exact (hf y ⟨hr.1, hr.2, hall y hy⟩).2.1
    · rw [← bits81_iff, packBits_bitLen]; simp [hl, Iterations]
    · rw [← bits81_iff, packBits_bitLen]; simp [hl, Iterations]
    · intro i hi
      have hy : ys.getD i 0 ∈ ys := by rw [List.getD_eq_getElem _ _ (by omega)]; exact List.getElem_mem _
      have hr := chal_range hN0 hys hy
      have := hf _ ⟨hr.1, hr.2, hall _ hy⟩
      rw [bit_nat, bit_nat, packBits_testBit _ _ (by simp [hl]; omega), packBits_testBit _ _ (by simp [hl]; omega)]
      have g1 : (ys.map fz).getD i 0 = fz (ys.getD i 0) := by
        rw [List.getD_eq_getElem _ _ (by simp; omega), List.getD_eq_getElem _ _ (by omega)]; simp
      have g2 : (ys.map fx).getD i 0 = fx (ys.getD i 0) := by
        rw [List.getD_eq_getElem _ _ (by simp; omega), List.getD_eq_getElem _ _ (by omega)]; simp
      have g3 : (ys.map fa).getD i false = fa (ys.getD i 0) := by
        rw [List.getD_eq_getElem _ _ (by simp; omega), List.getD_eq_getElem _ _ (by omega)]; simp
      have g4 : (ys.map fb).getD i false = fb (ys.getD i 0) := by
        rw [List.getD_eq_getElem _ _ (by simp; omega), List.getD_eq_getElem _ _ (by omega)]; simp
      rw [g1, g2, g3, g4]
      exact ⟨this.2.2.2.1, this.2.2.2.2⟩

/-- The W the prover draws is a non-negative residue of Jacobi symbol -1 and the proof is the one for that W. -/
theorem C40_newProof (H : Bytes → Bytes) (session : Bytes) (n p q : Int) (fuel : Nat) (tape rest : Bytes) (pf : Proof)
    (hn : n % 2 = 1) (hpos : 0 < n) (h : NewProof H session n p q fuel tape = some (.ok (pf, rest))) :
    ∃ w, 0 ≤ w ∧ w < n ∧ jacobiSym w n.toNat = -1 ∧ proveWith H session n p q w = .ok pf := by
  have hloop : ∀ (inner f : Nat) (tape : Bytes) (w : Int) (rest : Bytes),
      nonResidueLoop n inner f tape = some (.ok (w, rest)) → 0 ≤ w ∧ w < n ∧ jacobiSym w n.toNat = -1 := by
    intro inner f
    induction f with
    | zero => intro tape w rest h; simp [nonResidueLoop] at h
    | succ f ih =>
      intro tape w rest h
      simp only [nonResidueLoop] at h
      have hj : ∀ v : Int, jacobi v n = some (jacobiSym v n.toNat) := by
        intro v
        unfold jacobi
        rw [if_neg (by omega), if_neg (by omega)]
        congr 2; omega
      split at h
      · simp at h
      · next v rest' hd =>
        rw [hj] at h
        simp only at h
        split at h
        · next hs =>
          simp only [Option.some_inj, Res.ok.injEq, Prod.mk.injEq] at h
          obtain ⟨rfl, rfl⟩ := h
          simp only [GetRandomPositiveInt] at hd
          rw [if_neg (not_not.mpr hpos)] at hd
          obtain ⟨v', hv', h1, h2⟩ := getRandomPositiveIntLoop_range _ _ _ _ hd
          rw [Option.some_inj] at hv'
          exact ⟨hv' ▸ h1, hv' ▸ h2, hs⟩
        · exact ih _ _ _ h
      · simp at h
      · simp at h
      · simp at h
  unfold NewProof at h
  split at h
  · simp at h
  · next w rest' hd =>
    obtain ⟨h0, h1, h2⟩ := hloop _ _ _ _ _ hd
    refine ⟨w, h0, h1, h2, ?_⟩
    split at h
    · next pf' hp =>
      simp only [Option.some_inj, Res.ok.injEq, Prod.mk.injEq] at h
      rw [hp, h.1]
    · simp at h
    · simp at h
  · simp at h
  · simp at h

/-- Non-vacuity: N = 77 = 7·11, W = 2, and a hash for which all challenges are 1. -/
example : ∃ pf, proveWith (fun _ => [1]) [] 77 7 11 2 = .ok pf ∧ ∀ order, spec.Schedule order →
    Verify (fun _ => [1]) (fun _ => false) [] 77 (some pf) order = .ok true := by
  have hb : Blum 7 11 := ⟨by norm_num, by norm_num, by decide, rfl, rfl⟩
  have hc : spec.Challenges (fun _ => [1]) [] 2 77 (List.replicate 80 1) := by
    refine ⟨by simp, ?_⟩
    intro i hi
    rw [List.getD_eq_getElem _ _ (by rw [List.length_replicate]; exact hi), List.getElem_replicate]
    rfl
  obtain ⟨pf, h1, h2⟩ := C40_complete hb (by decide) (fun _ => [1]) (fun _ => false) rfl [] 2 (by decide) (by decide)
    (by norm_num) (List.replicate 80 1) hc
  refine ⟨pf, h1, fun o ho => (h2 o ho).mpr ?_⟩
  intro y hy
  rw [List.eq_of_mem_replicate hy]; decide

/-! ### Serialization -/

theorem allNonEmpty_iff (l : List Bytes) : allNonEmpty l = true ↔ ∀ b ∈ l, b ≠ [] := by
  induction l with
  | nil => simp [allNonEmpty]
  | cons b t ih =>
    simp only [allNonEmpty, List.forall_mem_cons]
    cases b with
    | nil => simp [NonEmptyBytes]
    | cons x r => simpa [NonEmptyBytes] using ih

/-- C41. Exactly the lists of 163 non-empty parts are decoded. -/
theorem C41_accepts_iff (bzs : List Bytes) :
    (NewProofFromBytes bzs).isSome ↔ bzs.length = 163 ∧ ∀ b ∈ bzs, b ≠ [] := by
  have hP : Parts = 163 := rfl
  unfold NewProofFromBytes NonEmptyMultiBytes
  simp only
  rw [hP]
  by_cases h0 : bzs.length = 0
  · rw [if_pos h0]; simp [h0]
  rw [if_neg h0]
  by_cases h1 : bzs.length = 163
  · rw [← allNonEmpty_iff]
    cases allNonEmpty bzs <;> simp [h1]
  · have : ¬ (163 : Int) = bzs.length := by omega
    simp [h1, this]

/-- C41. Decoding what was encoded gives the proof back, when every part is a positive integer (as in every accepted
proof). -/
theorem C41_round_trip (w a b : Int) (xs zs : List Int) (hx : xs.length = 80) (hz : zs.length = 80)
    (hpos : 0 < w ∧ 0 < a ∧ 0 < b ∧ (∀ x ∈ xs, 0 < x) ∧ ∀ z ∈ zs, 0 < z) :
    ∃ bzs, toBytes ⟨some w, xs.map some, some a, some b, zs.map some⟩ = .ok bzs ∧
      NewProofFromBytes bzs = some ⟨some w, xs.map some, some a, some b, zs.map some⟩ := by
  obtain ⟨hw, ha, hb, hxp, hzp⟩ := hpos
  have hI : Iterations = 80 := rfl
  have ht : toBytes ⟨some w, xs.map some, some a, some b, zs.map some⟩ =
      .ok ((w :: xs ++ a :: b :: zs).map intBytes) := by
    simp [toBytes, Function.comp_def]
  refine ⟨_, ht, ?_⟩
  have hlen : ((w :: xs ++ a :: b :: zs).map intBytes).length = 163 := by simp [hx, hz]
  have hne : ∀ p ∈ (w :: xs ++ a :: b :: zs).map intBytes, p ≠ [] := by
    intro p hp
    obtain ⟨v, hv, rfl⟩ := List.mem_map.mp hp
    intro h0
    rw [intBytes_eq_nil] at h0
    subst h0
    simp only [List.mem_cons, List.cons_append, List.mem_append] at hv
    rcases hv with h | h | h | h | h
    · omega
    · exact absurd (hxp _ h) (by decide)
    · omega
    · omega
    · exact absurd (hzp _ h) (by decide)
  have hs := (C41_accepts_iff _).mpr ⟨hlen, hne⟩
  have hdec : ((w :: xs ++ a :: b :: zs).map intBytes).map (fun b => some (beNat b : Int)) =
      (w :: xs ++ a :: b :: zs).map some := by
    rw [List.map_map]
    refine List.map_congr_left ?_
    intro v hv
    have : 0 < v := by
      simp only [List.mem_cons, List.cons_append, List.mem_append] at hv
      rcases hv with h | h | h | h | h
      · omega
      · exact hxp _ h
      · omega
      · omega
      · exact hzp _ h
    simp only [Function.comp, beNat_intBytes, Option.some_inj]
    omega
  unfold NewProofFromBytes at hs ⊢
  split at hs
  · simp at hs
  · next hne =>
    rw [if_neg hne]
    simp only
    rw [hdec, hI]
    simp only [List.map_append, List.map_cons, List.cons_append, List.drop_succ_cons, List.drop_zero]
    have e1 : (xs.map some ++ some a :: some b :: zs.map some).take 80 = xs.map some := by
      rw [List.take_append_of_le_length (by simp [hx]), List.take_of_length_le (by simp [hx])]
    have e2 : (some w :: (xs.map some ++ some a :: some b :: zs.map some)).getD (80 + 1) none = some a := by
      rw [List.getD_cons_succ, List.getD_append_right _ _ _ _ (by simp [hx])]; simp [hx]
    have e3 : (some w :: (xs.map some ++ some a :: some b :: zs.map some)).getD (80 + 2) none = some b := by
      rw [List.getD_cons_succ, List.getD_append_right _ _ _ _ (by simp [hx])]; simp [hx]
    have e4 : (xs.map some ++ some a :: some b :: zs.map some).drop (80 + 2) = zs.map some := by
      rw [List.drop_append, List.drop_of_length_le (by simp [hx])]; simp [hx]
    rw [e1, e2, e3, e4]
    rfl

/-- C41. Whatever is decoded has no nil part, 80 entries in each array, and no negative number. -/
theorem C41_decoded (bzs : List Bytes) (p : Proof) (h : NewProofFromBytes bzs = some p) :
    ValidateBasic p = true ∧ p.X.length = 80 ∧ p.Z.length = 80 ∧
      ∀ v, (some v = p.W ∨ some v = p.A ∨ some v = p.B ∨ some v ∈ p.X ∨ some v ∈ p.Z) → 0 ≤ v := by
  have hl := ((C41_accepts_iff bzs).mp (by rw [h]; rfl)).1
  have hI : Iterations = 80 := rfl
  unfold NewProofFromBytes at h
  split at h
  · simp at h
  simp only [Option.some_inj] at h
  subst h
  have hget : ∀ k, k < 163 → (bzs.map fun b => some (beNat b : Int)).getD k none = some (beNat (bzs.getD k []) : Int) := by
    intro k hk
    rw [List.getD_eq_getElem _ _ (by simp; omega), List.getD_eq_getElem _ _ (by omega)]; simp
  have hmem : ∀ o ∈ (bzs.map fun b => some (beNat b : Int)), ∃ b : Bytes, o = some (beNat b : Int) := by
    intro o ho
    obtain ⟨b, _, rfl⟩ := List.mem_map.mp ho
    exact ⟨b, rfl⟩
  rw [hget 0 (by omega), hget (Iterations + 1) (by omega), hget (Iterations + 2) (by omega)]
  refine ⟨?_, ?_, ?_, ?_⟩
  · simp only [ValidateBasic, Option.isSome_some, Bool.true_and, Bool.and_true, Bool.and_eq_true, List.all_eq_true]
    refine ⟨?_, ?_⟩
    · intro o ho
      obtain ⟨b, rfl⟩ := hmem o (List.mem_of_mem_drop (List.mem_of_mem_take ho))
      rfl
    · intro o ho
      obtain ⟨b, rfl⟩ := hmem o (List.mem_of_mem_drop ho)
      rfl
  · simp [hI]; omega
  · simp [hI]; omega
  · intro v hv
    rcases hv with hv | hv | hv | hv | hv
    · simp only [Option.some_inj] at hv; omega
    · simp only [Option.some_inj] at hv; omega
    · simp only [Option.some_inj] at hv; omega
    · obtain ⟨b, hb⟩ := hmem _ (List.mem_of_mem_drop (List.mem_of_mem_take hv))
      simp only [Option.some_inj] at hb; omega
    · obtain ⟨b, hb⟩ := hmem _ (List.mem_of_mem_drop hv)
      simp only [Option.some_inj] at hb; omega

example : ∃ bzs, toBytes ⟨some 2, (List.replicate 80 1).map some, some (2 ^ 80), some (2 ^ 80 + 3), (List.replicate 80 5).map some⟩ = .ok bzs ∧
    NewProofFromBytes bzs = some ⟨some 2, (List.replicate 80 1).map some, some (2 ^ 80), some (2 ^ 80 + 3), (List.replicate 80 5).map some⟩ :=
  C41_round_trip 2 (2 ^ 80) (2 ^ 80 + 3) (List.replicate 80 1) (List.replicate 80 5) (by simp) (by simp)
    ⟨by decide, by decide, by decide, fun x hx => by rw [List.eq_of_mem_replicate hx]; decide,
      fun x hx => by rw [List.eq_of_mem_replicate hx]; decide⟩

/-- C41. A proof with a zero part (which the verifier would refuse) does not survive: its part is empty. -/
theorem C41_zero_part_lost (p : Proof) (w a b : Int) (hW : p.W = some w) (hA : p.A = some a) (hB : p.B = some b)
    (h : w = 0 ∨ a = 0 ∨ b = 0 ∨ some 0 ∈ p.X ∨ some 0 ∈ p.Z ∨ none ∈ p.X ∨ none ∈ p.Z) :
    ∃ bzs, toBytes p = .ok bzs ∧ NewProofFromBytes bzs = none := by
  refine ⟨_, by unfold toBytes; rw [hW, hA, hB], ?_⟩
  rw [← Option.not_isSome_iff_eq_none, C41_accepts_iff]
  rintro ⟨-, hne⟩
  simp only [List.mem_append, List.mem_cons, List.cons_append, List.mem_map] at hne
  have z0 : intBytes 0 = [] := rfl
  rcases h with rfl | rfl | rfl | h | h | h | h
  · exact hne _ (Or.inl rfl) z0
  · exact hne _ (Or.inr (Or.inr (Or.inl rfl))) z0
  · exact hne _ (Or.inr (Or.inr (Or.inr (Or.inl rfl)))) z0
  · exact hne _ (Or.inr (Or.inl ⟨_, h, rfl⟩)) z0
  · exact hne _ (Or.inr (Or.inr (Or.inr (Or.inr ⟨_, h, rfl⟩)))) z0
  · exact hne _ (Or.inr (Or.inl ⟨_, h, rfl⟩)) rfl
  · exact hne _ (Or.inr (Or.inr (Or.inr (Or.inr ⟨_, h, rfl⟩)))) rfl

end Tss.ModProof
