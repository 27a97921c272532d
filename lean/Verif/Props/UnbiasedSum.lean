import Verif.Props.Unbiased
import Mathlib.Analysis.SpecificLimits.Basic
import Mathlib.Data.Nat.Totient
/-
C89, the probabilities: with a uniform reader every value is drawn with probability exactly 1/n, so a draw ends with probability 1.
-/
namespace Tss.Common
open Tss

/-- Tapes that are used up by a retry loop, in chunks of k bytes taken modulo M. -/
inductive Drawn (k M : Nat) (good : Nat → Bool) : Bytes → Nat → Prop
  | hit (a : Bytes) : a.length = k → good (beNat a % M) = true → Drawn k M good a (beNat a % M)
  | miss (a t : Bytes) (v : Nat) : a.length = k → good (beNat a % M) = false → Drawn k M good t v → Drawn k M good (a ++ t) v

theorem Drawn.len {k M : Nat} {good : Nat → Bool} {t : Bytes} {v : Nat} (h : Drawn k M good t v) : ∃ m, t.length = (m + 1) * k := by
  induction h with
  | hit a h _ => exact ⟨0, by rw [h]; ring⟩
  | miss a t v h _ _ ih => obtain ⟨m, hm⟩ := ih; exact ⟨m + 1, by rw [List.length_append, h, hm]; ring⟩

theorem Drawn.good {k M : Nat} {good : Nat → Bool} {t : Bytes} {v : Nat} (h : Drawn k M good t v) : good v = true := by
  induction h with
  | hit a _ h => exact h
  | miss a t v _ _ _ ih => exact ih

theorem drawn_append {k M : Nat} {good : Nat → Bool} {a t : Bytes} (ha : a.length = k) (v : Nat) :
    Drawn k M good (a ++ t) v ↔
      (good (beNat a % M) = true ∧ t = [] ∧ v = beNat a % M) ∨ (good (beNat a % M) = false ∧ Drawn k M good t v) := by
  constructor
  · intro h
    generalize hs : a ++ t = s at h
    cases h with
    | hit _ h1 h2 =>
      have ht : t = [] := by
        have := congrArg List.length hs
        rw [List.length_append, ha, h1] at this
        exact List.length_eq_zero_iff.mp (by omega)
      subst ht
      rw [List.append_nil] at hs
      subst hs
      exact .inl ⟨h2, rfl, rfl⟩
    | miss b u _ h1 h2 h3 =>
      obtain ⟨rfl, rfl⟩ := List.append_inj hs (by rw [ha, h1])
      exact .inr ⟨h2, h3⟩
  · rintro (⟨h1, rfl, rfl⟩ | ⟨h1, h2⟩)
    · rw [List.append_nil]; exact .hit a ha h1
    · exact .miss a t v ha h1 h2

/-! ### The loops draw chunk by chunk -/

theorem randIntLoop_fuel {max k b : Nat} (hk : 0 < k) : ∀ (f g : Nat) (t : Bytes), t.length < f → t.length < g →
    randIntLoop max k b f t = randIntLoop max k b g t
  | 0, _, _, h, _ => absurd h (by omega)
  | _, 0, _, _, h => absurd h (by omega)
  | f + 1, g + 1, t, hf, hg => by
    unfold randIntLoop
    cases hr : readFull k t with
    | none => rfl
    | some p =>
      obtain ⟨buf, rest⟩ := p
      have hl : rest.length + k = t.length := by
        unfold readFull at hr
        split at hr
        · cases hr
        · injection hr with hr; injection hr with h1 h2
          rw [← h2, List.length_drop]; omega
      simp only
      rw [randIntLoop_fuel hk f g rest (by omega) (by omega)]

theorem readFull_append {k : Nat} {a t : Bytes} (ha : a.length = k) : readFull k (a ++ t) = some (a, t) := by
  unfold readFull
  rw [if_neg (by rw [List.length_append]; omega), List.take_left' ha, List.drop_left' ha]

theorem bitLen_max {bits : Nat} (h2 : 2 ≤ bits) : bitLen ((2 : Int) ^ bits - 1 - 1) = bits := by
  have h4 : 4 ≤ 2 ^ bits := by
    calc 4 = 2 ^ 2 := by norm_num
      _ ≤ 2 ^ bits := Nat.pow_le_pow_right (by norm_num) h2
  have e : ((2 : Int) ^ bits - 1 - 1) = ((2 ^ bits - 2 : Nat) : Int) := by
    have : (2 : Int) ^ bits = ((2 ^ bits : Nat) : Int) := by simp
    rw [this]; omega
  rw [e, bitLen_nat]
  refine le_antisymm (Nat.size_le.mpr (by omega)) ?_
  have : bits - 1 < (2 ^ bits - 2).size := by
    rw [Nat.lt_size]
    have : 2 ^ bits = 2 * 2 ^ (bits - 1) := by
      obtain ⟨c, rfl⟩ : ∃ c, bits = c + 1 := ⟨bits - 1, by omega⟩
      rw [pow_succ]; simp; ring
    omega
  omega

/-- One chunk of MustGetRandomInt. -/
theorem must_step {bits : Nat} (h2 : 2 ≤ bits) (h5 : bits ≤ 5000) {a : Bytes} (ha : a.length = (bits + 7) / 8) (t : Bytes) :
    MustGetRandomInt bits (a ++ t) =
      if beNat a % 2 ^ bits < 2 ^ bits - 1 then .ok (((beNat a % 2 ^ bits : Nat) : Int), t) else MustGetRandomInt bits t := by
  have hb : ¬((bits : Int) ≤ 0 ∨ mustGetRandomIntMaxBits < (bits : Int)) := by unfold mustGetRandomIntMaxBits; omega
  have h4 : 4 ≤ 2 ^ bits := by
    calc 4 = 2 ^ 2 := by norm_num
      _ ≤ 2 ^ bits := Nat.pow_le_pow_right (by norm_num) h2
  have hpos : ¬ ((2 : Int) ^ bits - 1 ≤ 0) := by
    have : (2 : Int) ^ bits = ((2 ^ bits : Nat) : Int) := by simp
    rw [this]; omega
  have hnat : ((2 : Int) ^ bits - 1).toNat = 2 ^ bits - 1 := by
    have : (2 : Int) ^ bits = ((2 ^ bits : Nat) : Int) := by simp
    rw [this]; omega
  unfold MustGetRandomInt randInt
  rw [if_neg hb, if_neg hb]
  simp only [Int.toNat_natCast]
  rw [if_neg hpos, if_neg hpos, bitLen_max h2, if_neg (show ¬ bits = 0 by omega), if_neg (show ¬ bits = 0 by omega), hnat]
  generalize hb' : (if bits % 8 = 0 then 8 else bits % 8) = b
  have hb8 : b ≤ 8 := by rw [← hb']; split <;> omega
  obtain ⟨k, hk'⟩ : ∃ k, (bits + 7) / 8 = k + 1 := ⟨(bits + 7) / 8 - 1, by omega⟩
  have hkb : bits = 8 * k + b := by rw [← hb']; split <;> omega
  rw [hk'] at ha ⊢
  have step : randIntLoop (2 ^ bits - 1) (k + 1) b ((a ++ t).length + 1) (a ++ t) =
      if beNat a % 2 ^ bits < 2 ^ bits - 1 then some (beNat a % 2 ^ bits, t)
      else randIntLoop (2 ^ bits - 1) (k + 1) b (t.length + 1) t := by
    conv_lhs => unfold randIntLoop
    rw [readFull_append ha]
    simp only
    rw [mask_val ha hb8, ← hkb, randIntLoop_fuel (by omega) (a ++ t).length (t.length + 1) t
      (by rw [List.length_append]; omega) (by omega)]
  rw [step]
  by_cases hc : beNat a % 2 ^ bits < 2 ^ bits - 1
  · rw [if_pos hc, if_pos hc]
  · rw [if_neg hc, if_neg hc]

theorem must_short {bits : Nat} (h2 : 2 ≤ bits) (h5 : bits ≤ 5000) {t : Bytes} (ht : t.length < (bits + 7) / 8) :
    MustGetRandomInt bits t = .panic := by
  have hb : ¬((bits : Int) ≤ 0 ∨ mustGetRandomIntMaxBits < (bits : Int)) := by unfold mustGetRandomIntMaxBits; omega
  have h4 : 4 ≤ 2 ^ bits := by
    calc 4 = 2 ^ 2 := by norm_num
      _ ≤ 2 ^ bits := Nat.pow_le_pow_right (by norm_num) h2
  have hpos : ¬ ((2 : Int) ^ bits - 1 ≤ 0) := by
    have : (2 : Int) ^ bits = ((2 ^ bits : Nat) : Int) := by simp
    rw [this]; omega
  unfold MustGetRandomInt randInt
  rw [if_neg hb]
  simp only [Int.toNat_natCast]
  rw [if_neg hpos, bitLen_max h2, if_neg (show ¬ bits = 0 by omega)]
  unfold randIntLoop readFull
  rw [if_pos ht]

theorem retry_drawn {bits : Nat} (h2 : 2 ≤ bits) (h5 : bits ≤ 5000) {good : Int → Bool}
    (hg : ∀ x : Nat, good x = true → x < 2 ^ bits - 1) (v : Int) (t : Bytes) :
    (∃ f, retry bits good f t = some (.ok (some v, []))) ↔
      ∃ w : Nat, v = w ∧ Drawn ((bits + 7) / 8) (2 ^ bits) (fun x => good x) t w := by
  have hk : 0 < (bits + 7) / 8 := by omega
  induction hn : t.length using Nat.strong_induction_on generalizing t with
  | _ n ih =>
    by_cases hs : t.length < (bits + 7) / 8
    · constructor
      · rintro ⟨f, h⟩
        cases f with
        | zero => cases h
        | succ f => unfold retry at h; rw [must_short h2 h5 hs] at h; cases h
      · rintro ⟨w, -, h⟩
        obtain ⟨m, hm⟩ := h.len
        exfalso
        have : (bits + 7) / 8 ≤ (m + 1) * ((bits + 7) / 8) := Nat.le_mul_of_pos_left _ (by omega)
        omega
    · obtain ⟨a, u, rfl, ha⟩ : ∃ a u, t = a ++ u ∧ a.length = (bits + 7) / 8 :=
        ⟨t.take ((bits + 7) / 8), t.drop ((bits + 7) / 8), (List.take_append_drop _ t).symm, by rw [List.length_take]; omega⟩
      have ihu := ih u.length (by rw [← hn, List.length_append]; omega) u rfl
      have must := must_step h2 h5 ha u
      simp only [drawn_append ha]
      by_cases hx : beNat a % 2 ^ bits < 2 ^ bits - 1
      · rw [if_pos hx] at must
        have hr : ∀ f, retry bits good (f + 1) (a ++ u) =
            if good ((beNat a % 2 ^ bits : Nat) : Int) then some (.ok (some ((beNat a % 2 ^ bits : Nat) : Int), u)) else retry bits good f u := by
          intro f; conv_lhs => unfold retry
          rw [must]
        cases hgx : good ((beNat a % 2 ^ bits : Nat) : Int) with
        | true =>
          constructor
          · rintro ⟨f, h⟩
            cases f with
            | zero => cases h
            | succ f =>
              rw [hr, hgx, if_pos rfl] at h
              simp only [Option.some.injEq, Res.ok.injEq, Prod.mk.injEq] at h
              exact ⟨_, h.1.symm, .inl ⟨rfl, h.2, rfl⟩⟩
          · rintro ⟨w, rfl, ⟨-, rfl, rfl⟩ | ⟨h, -⟩⟩
            · exact ⟨1, by rw [hr, hgx, if_pos rfl]⟩
            · cases h
        | false =>
          constructor
          · rintro ⟨f, h⟩
            cases f with
            | zero => cases h
            | succ f =>
              rw [hr, hgx, if_neg (by simp)] at h
              obtain ⟨w, h1, h3⟩ := ihu.mp ⟨f, h⟩
              exact ⟨w, h1, .inr ⟨rfl, h3⟩⟩
          · rintro ⟨w, rfl, ⟨h, -⟩ | ⟨-, h⟩⟩
            · cases h
            · obtain ⟨f, hf⟩ := ihu.mpr ⟨w, rfl, h⟩
              exact ⟨f + 1, by rw [hr, hgx, if_neg (by simp), hf]⟩
      · rw [if_neg hx] at must
        have hgx : good ((beNat a % 2 ^ bits : Nat) : Int) = false := by
          cases h : good ((beNat a % 2 ^ bits : Nat) : Int) with
          | true => exact absurd (hg _ h) hx
          | false => rfl
        have hr : ∀ f, retry bits good f (a ++ u) = retry bits good f u := by
          intro f
          cases f with
          | zero => rfl
          | succ f => unfold retry; rw [must]
        simp only [hr, hgx, Bool.false_eq_true, false_and, false_or, true_and]
        exact ihu

/-! ### Counting -/

/-- chunks whose residue has a property -/
def chunkEquiv (k M W : Nat) (hM : 0 < M) (hW : M * W = 256 ^ k) (P : Nat → Prop) :
    {a : Bytes // a.length = k ∧ P (beNat a % M)} ≃ {x : Fin M // P x} × Fin W where
  toFun a := (⟨⟨beNat a.1 % M, Nat.mod_lt _ hM⟩, a.2.2⟩, ⟨beNat a.1 / M, by
    have := beNat_lt a.1
    rw [a.2.1, ← hW] at this
    exact Nat.div_lt_of_lt_mul this⟩)
  invFun p := ⟨beFixed k (M * p.2 + p.1.1), beFixed_length _ _, by
    have h1 : M * p.2.val + p.1.1.val < 256 ^ k := by
      rw [← hW]
      calc M * p.2.val + p.1.1.val < M * p.2.val + M := by omega
        _ = M * (p.2.val + 1) := by ring
        _ ≤ M * W := Nat.mul_le_mul_left _ p.2.isLt
    rw [beNat_beFixed, Nat.mod_eq_of_lt h1, Nat.mul_add_mod, Nat.mod_eq_of_lt p.1.1.isLt]
    exact p.1.2⟩
  left_inv := by
    rintro ⟨a, ha, hp⟩
    apply Subtype.ext
    show beFixed k (M * (beNat a / M) + beNat a % M) = a
    rw [Nat.div_add_mod, ← ha, beFixed_beNat]
  right_inv := by
    rintro ⟨⟨x, hx⟩, q⟩
    have h1 : M * q.val + x.val < 256 ^ k := by
      rw [← hW]
      calc M * q.val + x.val < M * q.val + M := by omega
        _ = M * (q.val + 1) := by ring
        _ ≤ M * W := Nat.mul_le_mul_left _ q.isLt
    have h2 : beNat (beFixed k (M * q.val + x.val)) = M * q.val + x.val := by rw [beNat_beFixed, Nat.mod_eq_of_lt h1]
    refine Prod.ext (Subtype.ext (Fin.ext ?_)) (Fin.ext ?_)
    · show beNat (beFixed k (M * q.val + x.val)) % M = x
      rw [h2, Nat.mul_add_mod, Nat.mod_eq_of_lt x.isLt]
    · show beNat (beFixed k (M * q.val + x.val)) / M = q
      rw [h2, Nat.mul_add_div hM, Nat.div_eq_of_lt x.isLt, Nat.add_zero]

/-- number of tapes of a length -/
noncomputable def drawnCard (k M : Nat) (good : Nat → Bool) (l v : Nat) : Nat := Nat.card {t : Bytes // t.length = l ∧ Drawn k M good t v}

theorem drawnCard_first {k M W : Nat} (hk : 0 < k) (hM : 0 < M) (hW : M * W = 256 ^ k) {good : Nat → Bool} {v : Nat} (hv : v < M)
    (hg : good v = true) : drawnCard k M good k v = W := by
  have e : {t : Bytes // t.length = k ∧ Drawn k M good t v} ≃ {a : Bytes // a.length = k ∧ beNat a % M = v} := by
    refine Equiv.subtypeEquivRight fun t => and_congr_right fun ht => ?_
    have := drawn_append (M := M) (good := good) (a := t) (t := []) ht v
    rw [List.append_nil] at this
    rw [this]
    constructor
    · rintro (⟨-, -, h⟩ | ⟨-, h⟩)
      · exact h.symm
      · obtain ⟨m, hm⟩ := h.len
        have : 0 < (m + 1) * k := Nat.mul_pos (by omega) hk
        simp at hm; omega
    · rintro rfl; exact .inl ⟨hg, rfl, rfl⟩
  unfold drawnCard
  rw [Nat.card_congr e, Nat.card_congr (chunkEquiv k M W hM hW (· = v)), Nat.card_prod, Nat.card_fin]
  have : Nat.card {x : Fin M // (x : Nat) = v} = 1 := by
    rw [Nat.card_eq_one_iff_unique]
    exact ⟨⟨fun a b => Subtype.ext (Fin.ext (a.2.trans b.2.symm))⟩, ⟨⟨⟨v, hv⟩, rfl⟩⟩⟩
  rw [this, Nat.one_mul]

theorem drawnCard_next {k M W : Nat} (hM : 0 < M) (hW : M * W = 256 ^ k) {good : Nat → Bool} (v l : Nat) (hl : 0 < l) :
    drawnCard k M good (l + k) v = Nat.card {x : Fin M // good x = false} * W * drawnCard k M good l v := by
  have e : {t : Bytes // t.length = l + k ∧ Drawn k M good t v} ≃
      {a : Bytes // a.length = k ∧ good (beNat a % M) = false} × {t : Bytes // t.length = l ∧ Drawn k M good t v} :=
    { toFun := fun t =>
        have ht : (t.1.take k).length = k := by rw [List.length_take, t.2.1]; omega
        have hd : (t.1.drop k).length = l := by rw [List.length_drop, t.2.1]; omega
        have h := (drawn_append (M := M) (good := good) (a := t.1.take k) (t := t.1.drop k) ht v).mp
          (by rw [List.take_append_drop]; exact t.2.2)
        have h' : good (beNat (t.1.take k) % M) = false ∧ Drawn k M good (t.1.drop k) v := by
          rcases h with ⟨-, h, -⟩ | h
          · rw [h] at hd; simp at hd; omega
          · exact h
        (⟨t.1.take k, ht, h'.1⟩, ⟨t.1.drop k, hd, h'.2⟩)
      invFun := fun p => ⟨p.1.1 ++ p.2.1, by rw [List.length_append, p.1.2.1, p.2.2.1]; omega,
        .miss _ _ _ p.1.2.1 p.1.2.2 p.2.2.2⟩
      left_inv := fun t => Subtype.ext (List.take_append_drop _ _)
      right_inv := fun p => Prod.ext (Subtype.ext (List.take_left' p.1.2.1)) (Subtype.ext (List.drop_left' p.1.2.1)) }
  unfold drawnCard
  rw [Nat.card_congr e, Nat.card_prod, Nat.card_congr (chunkEquiv k M W hM hW (fun x => good x = false)), Nat.card_prod, Nat.card_fin]

theorem drawnCard_eq {k M W : Nat} (hk : 0 < k) (hM : 0 < M) (hW : M * W = 256 ^ k) {good : Nat → Bool} {v : Nat} (hv : v < M)
    (hg : good v = true) (m : Nat) :
    drawnCard k M good ((m + 1) * k) v = (Nat.card {x : Fin M // good x = false} * W) ^ m * W := by
  induction m with
  | zero => rw [Nat.zero_add, Nat.one_mul, drawnCard_first hk hM hW hv hg, pow_zero, Nat.one_mul]
  | succ m ih =>
    have e : (m + 1 + 1) * k = (m + 1) * k + k := by ring
    rw [e, drawnCard_next hM hW v _ (Nat.mul_pos (by omega) hk), ih, pow_succ]
    ring

/-- The probabilities of a value add up to one over the number of good ones. -/
theorem drawn_sum {k M W : Nat} (hk : 0 < k) (hM : 0 < M) (hW : M * W = 256 ^ k) {good : Nat → Bool} {v : Nat} (hv : v < M)
    (hg : good v = true) :
    HasSum (fun l => (drawnCard k M good l v : ℝ) / 256 ^ l) (1 / (Nat.card {x : Fin M // good x = true} : ℝ)) := by
  have hinj : Function.Injective fun m : Nat => (m + 1) * k := by
    intro a b h
    have := Nat.eq_of_mul_eq_mul_right hk h
    omega
  have hzero : ∀ l ∉ Set.range (fun m : Nat => (m + 1) * k), (drawnCard k M good l v : ℝ) / 256 ^ l = 0 := by
    intro l hl
    have : drawnCard k M good l v = 0 := by
      unfold drawnCard
      rw [Nat.card_eq_zero]
      refine .inl ⟨fun t => hl ?_⟩
      obtain ⟨m, hm⟩ := t.2.2.len
      exact ⟨m, hm.symm.trans t.2.1⟩
    rw [this]; simp
  rw [← hinj.hasSum_iff hzero]
  set g := Nat.card {x : Fin M // good x = true} with hgdef
  set b := Nat.card {x : Fin M // good x = false} with hbdef
  have hgb : g + b = M := by
    have : b = Nat.card {x : Fin M // ¬ good x = true} := Nat.card_congr (Equiv.subtypeEquivRight fun x => by simp)
    rw [this, hgdef, Nat.card_eq_fintype_card, Nat.card_eq_fintype_card, Fintype.card_subtype_compl, Fintype.card_fin]
    have := Fintype.card_subtype_le (fun x : Fin M => good x = true)
    rw [Fintype.card_fin] at this
    omega
  have hg0 : 0 < g := by
    rw [hgdef]
    have : Nonempty {x : Fin M // good x = true} := ⟨⟨⟨v, hv⟩, hg⟩⟩
    exact Nat.card_pos
  have hW0 : 0 < W := by
    rcases Nat.eq_zero_or_pos W with h | h
    · rw [h] at hW; have : 0 < 256 ^ k := by positivity
      omega
    · exact h
  have hMr : (0 : ℝ) < M := by exact_mod_cast hM
  have hWr : (0 : ℝ) < W := by exact_mod_cast hW0
  have hgr : (0 : ℝ) < g := by exact_mod_cast hg0
  have hsum : (g : ℝ) + b = M := by exact_mod_cast hgb
  have e : ((fun l => (drawnCard k M good l v : ℝ) / 256 ^ l) ∘ fun m : Nat => (m + 1) * k) =
      fun m : Nat => ((b : ℝ) / M) ^ m * (1 / M) := by
    funext m
    show (drawnCard k M good ((m + 1) * k) v : ℝ) / 256 ^ ((m + 1) * k) = _
    rw [drawnCard_eq hk hM hW hv hg m, ← hbdef]
    have h256 : (256 : ℝ) ^ ((m + 1) * k) = ((M : ℝ) * W) ^ (m + 1) := by
      rw [Nat.mul_comm, pow_mul]
      have : (256 : ℝ) ^ k = (M : ℝ) * W := by exact_mod_cast hW.symm
      rw [this]
    rw [h256]
    push_cast
    rw [mul_pow, mul_pow, div_pow, pow_succ, pow_succ]
    field_simp
  rw [e]
  have hlt : (b : ℝ) / M < 1 := by rw [div_lt_one hMr]; linarith
  have := (hasSum_geometric_of_lt_one (by positivity) hlt).mul_right (1 / (M : ℝ))
  have h1 : 1 - (b : ℝ) / M = g / M := by field_simp; linarith
  have h2 : (1 - (b : ℝ) / M)⁻¹ * (1 / M) = 1 / g := by rw [h1]; field_simp
  rw [h2] at this
  exact this

theorem outcomes_card {draw : Nat → Bytes → Run (Option Int × Bytes)} {bits : Nat} (h2 : 2 ≤ bits) (h5 : bits ≤ 5000) {good : Int → Bool}
    (hd : ∀ f t, draw f t = retry bits good f t) (hg : ∀ x : Nat, good x = true → x < 2 ^ bits - 1) (l v : Nat) :
    Nat.card (spec.outcomes draw l v) = drawnCard ((bits + 7) / 8) (2 ^ bits) (fun x => good x) l v := by
  refine Nat.card_congr (Equiv.subtypeEquivRight fun t => and_congr_right fun _ => ?_)
  simp only [hd]
  rw [retry_drawn h2 h5 hg]
  constructor
  · rintro ⟨w, h, hw⟩
    have : v = w := by exact_mod_cast h
    exact this ▸ hw
  · exact fun h => ⟨v, rfl, h⟩

theorem outcomes_sum {draw : Nat → Bytes → Run (Option Int × Bytes)} {bits : Nat} (h2 : 2 ≤ bits) (h5 : bits ≤ 5000) {good : Int → Bool}
    (hd : ∀ f t, draw f t = retry bits good f t) (hg : ∀ x : Nat, good x = true → x < 2 ^ bits - 1) (v : Nat) (hv : good v = true)
    (c : Nat) (hc : Nat.card {x : Fin (2 ^ bits) // good (x : Nat) = true} = c) :
    HasSum (fun l => (Nat.card (spec.outcomes draw l v) : ℝ) / 256 ^ l) (1 / (c : ℝ)) := by
  simp only [outcomes_card h2 h5 hd hg]
  have hW : 2 ^ bits * 2 ^ (8 * ((bits + 7) / 8) - bits) = 256 ^ ((bits + 7) / 8) := by
    have : (256 : Nat) = 2 ^ 8 := by norm_num
    rw [this, ← pow_mul, ← pow_add]
    congr 1
    omega
  have hlt := hg v hv
  rw [← hc]
  exact drawn_sum (by omega) (by positivity) hW (by omega) hv

theorem bits_range {n : Nat} (h2 : 2 ≤ n) (h5 : n < 2 ^ 5000) : 2 ≤ bitLen (n : Int) ∧ bitLen (n : Int) ≤ 5000 := by
  rw [bitLen_nat]
  exact ⟨Nat.lt_size.mpr (by simpa using h2), Nat.size_le.mpr h5⟩

/-- C89: with a uniform reader every number below n comes out of GetRandomPositiveInt with probability exactly 1/n (the sum over the
number ℓ of bytes used of the probability that ℓ random bytes are used up with that result), so the draw ends with probability 1. -/
theorem C89_probability (n v : Nat) (hn : n < 2 ^ 5000) (hv : v < n) :
    HasSum (fun l => (Nat.card (spec.outcomes (GetRandomPositiveInt (some n)) l v) : ℝ) / 256 ^ l) (1 / (n : ℝ)) := by
  by_cases h1 : n = 1
  · subst h1
    obtain rfl : v = 0 := by omega
    have hloop : ∀ (f : Nat) (t : Bytes), GetRandomPositiveInt (some ((1 : Nat) : Int)) f t = if f = 0 then none else some (.ok (some 0, t)) := by
      intro f t
      cases f with
      | zero => rfl
      | succ f =>
        have : MustGetRandomInt (bitLen ((1 : Nat) : Int)) t = .ok (0, t) := by
          have : bitLen ((1 : Nat) : Int) = 1 := by decide
          rw [this]
          rfl
        unfold GetRandomPositiveInt getRandomPositiveIntLoop
        simp only
        rw [this]
        rfl
    have hc : ∀ l, (Nat.card (spec.outcomes (GetRandomPositiveInt (some ((1 : Nat) : Int))) l ((0 : Nat) : Int)) : ℝ) / 256 ^ l = if l = 0 then 1 else 0 := by
      intro l
      have : spec.outcomes (GetRandomPositiveInt (some ((1 : Nat) : Int))) l ((0 : Nat) : Int) = if l = 0 then {[]} else ∅ := by
        ext t
        unfold spec.outcomes
        simp only [hloop, Set.mem_ofPred_eq]
        constructor
        · rintro ⟨ht, f, h⟩
          split at h
          · cases h
          · simp only [Option.some.injEq, Res.ok.injEq, Prod.mk.injEq] at h
            obtain ⟨-, rfl⟩ := h
            rw [if_pos (by simpa using ht.symm)]
            rfl
        · intro h
          split at h
          · next hl => rw [Set.mem_singleton_iff] at h; subst h hl; exact ⟨rfl, 1, rfl⟩
          · exact absurd h (Set.notMem_empty _)
      rw [this]
      split
      · next h => subst h; simp
      · simp
    simp only [hc]
    have := hasSum_ite_eq (0 : Nat) (1 : ℝ)
    simpa using this
  · obtain ⟨b2, b5⟩ := bits_range (n := n) (by omega) hn
    refine outcomes_sum b2 b5 (good := fun x => decide (x < n)) (fun f t => ?_) (fun x hx => ?_) v (by simpa using hv) n ?_
    · rw [← positive_retry]
      unfold GetRandomPositiveInt
      simp only
      rw [if_neg (by omega)]
    · exact lt_pow_bitLen_sub_one (by simpa using hx)
    · have hlt := lt_two_pow_bitLen n
      have e : {x : Fin (2 ^ bitLen (n : Int)) // decide (((x : Nat) : Int) < (n : Int)) = true} ≃ Fin n :=
        { toFun := fun x => ⟨x.1.1, by have := x.2; simpa using this⟩
          invFun := fun x => ⟨⟨x.1, x.2.trans hlt⟩, by simp⟩
          left_inv := fun x => rfl
          right_inv := fun x => rfl }
      rw [Nat.card_congr e, Nat.card_fin]

/-- C89: and every unit modulo n comes out of GetRandomPositiveRelativelyPrimeInt with probability exactly one over their number. -/
theorem C89_probability_units (n v : Nat) (hn : n < 2 ^ 5000) (hv : 1 ≤ v ∧ v < n ∧ Nat.Coprime v n) :
    HasSum (fun l => (Nat.card (spec.outcomes (GetRandomPositiveRelativelyPrimeInt (some n)) l v) : ℝ) / 256 ^ l)
      (1 / (Nat.totient n : ℝ)) := by
  obtain ⟨b2, b5⟩ := bits_range (n := n) (by omega) hn
  have hg : ∀ x : Nat, IsNumberInMultiplicativeGroup (some (n : Int)) (some (x : Int)) = true ↔ x < n ∧ Nat.Coprime n x := by
    intro x
    rw [C04_group_test]
    constructor
    · rintro ⟨-, h1, h2, h3⟩
      rw [Int.gcd_natCast_natCast] at h3
      exact ⟨by omega, Nat.coprime_comm.mp h3⟩
    · rintro ⟨h1, h2⟩
      have h0 : x ≠ 0 := by
        rintro rfl
        rw [Nat.coprime_zero_right] at h2
        omega
      refine ⟨by omega, by omega, by omega, ?_⟩
      rw [Int.gcd_natCast_natCast]; exact Nat.coprime_comm.mp h2
  refine outcomes_sum b2 b5 (good := fun x => IsNumberInMultiplicativeGroup (some (n : Int)) (some x)) (fun f t => ?_) (fun x hx => ?_) v
    ((hg v).mpr ⟨hv.2.1, Nat.coprime_comm.mp hv.2.2⟩) _ ?_
  · rw [← relPrime_retry]
    unfold GetRandomPositiveRelativelyPrimeInt
    simp only
    rw [if_neg (by omega)]
  · exact lt_pow_bitLen_sub_one ((hg x).mp hx).1
  · have hlt := lt_two_pow_bitLen n
    have e : {x : Fin (2 ^ bitLen (n : Int)) // IsNumberInMultiplicativeGroup (some (n : Int)) (some ((x : Nat) : Int)) = true} ≃
        {x : Nat // x ∈ (Finset.range n).filter (Nat.Coprime n)} :=
      { toFun := fun x => ⟨x.1.1, by
          rw [Finset.mem_filter, Finset.mem_range]
          exact (hg x.1.1).mp x.2⟩
        invFun := fun x => ⟨⟨x.1, by
          have h := x.2
          rw [Finset.mem_filter, Finset.mem_range] at h
          exact h.1.trans hlt⟩, by
          have h := x.2
          rw [Finset.mem_filter, Finset.mem_range] at h
          exact (hg x.1).mpr h⟩
        left_inv := fun x => rfl
        right_inv := fun x => rfl }
    rw [Nat.card_congr e, Nat.card_eq_fintype_card, Fintype.card_coe, Nat.totient_eq_card_coprime]

end Tss.Common
