import Verif.Model.EdVerify
import Verif.Lemmas.Ed25519Enc
/-
Point decompression inverts the point encoding; verification is the RFC 8032 equation.
-/
namespace Tss.Ed
open Tss Edw

theorem sqrtM1_sq : ((sqrtM1 : Nat) : F) ^ 2 = -1 := by
  have h : ((sqrtM1 ^ 2 + 1 : Nat) : F) = 0 := by rw [ZMod.natCast_eq_zero_iff]; decide +kernel
  push_cast at h
  linear_combination h

@[simp] theorem cast_feNeg (a : Nat) : ((feNeg a : Nat) : F) = -(a : F) := by
  unfold feNeg; rw [cast_feSub]; simp

@[simp] theorem cast_fePow22523 (a : Nat) : ((fePow22523 a : Nat) : F) = (a : F) ^ ((P - 5) / 8) := by
  unfold fePow22523
  rw [fePowAux_eq, powModAux_eq P _ _ _ _ (by decide +kernel), one_mul, ZMod.natCast_mod]
  push_cast
  rfl

theorem mod_eq_zero_iff (a : Nat) : a % P = 0 ↔ (a : F) = 0 := by
  rw [ZMod.natCast_eq_zero_iff, Nat.dvd_iff_mod_eq_zero]

theorem feIsNegative_val (a : Nat) : feIsNegative a = decide ((a : F).val % 2 = 1) := by
  unfold feIsNegative; rw [ZMod.val_natCast]

theorem v_ne_zero (y : F) : 1 + d * y ^ 2 ≠ 0 := by
  obtain ⟨i, hi⟩ := complete.sq
  intro h0
  by_cases hz : y = 0
  · rw [hz] at h0; simp at h0
  · apply complete.nsq (i / y)
    field_simp
    linear_combination hi - h0

theorem P_exp1 : (P - 1) / 2 = 4 * ((P - 5) / 8) + 2 := by decide +kernel

theorem P_exp2 : (P - 1) / 2 * 2 = P - 1 := by decide +kernel

theorem sq_one {a : F} (h : a ^ 2 = 1) : a = 1 ∨ a = -1 := by
  have : (a - 1) * (a + 1) = 0 := by linear_combination h
  rcases mul_eq_zero.1 this with h | h
  · left; linear_combination h
  · right; linear_combination h

theorem sqrt_alg {K : Type} [Field K] (x v : K) (k : Nat) :
    ((v ^ 3 * v ^ 3 * v * (v * x ^ 2)) ^ k * v ^ 3 * (v * x ^ 2)) ^ 2 * v = (v ^ 4 * x) ^ (4 * k + 2) * (v * x ^ 2) := by
  rw [pow_add, pow_mul]
  have h3 : ((v ^ 3 * v ^ 3 * v * (v * x ^ 2)) ^ k) ^ 2 = ((v ^ 4 * x) ^ 4) ^ k := by
    rw [← pow_mul, mul_comm k 2, pow_mul]; congr 1; ring
  generalize (v ^ 3 * v ^ 3 * v * (v * x ^ 2)) ^ k = a at *
  generalize ((v ^ 4 * x) ^ 4) ^ k = b at *
  rw [← h3]; ring

/-- The square-root formula: `v β² = ± u` for `u = v x²`. -/
theorem sqrt_formula (x v : F) (hv : v ≠ 0) (k : Nat) (hk : (P - 1) / 2 = 4 * k + 2) :
    ((v ^ 3 * v ^ 3 * v * (v * x ^ 2)) ^ k * v ^ 3 * (v * x ^ 2)) ^ 2 * v = v * x ^ 2 ∨
    ((v ^ 3 * v ^ 3 * v * (v * x ^ 2)) ^ k * v ^ 3 * (v * x ^ 2)) ^ 2 * v = -(v * x ^ 2) := by
  by_cases hx : x = 0
  · left; simp [hx]
  have hw : v ^ 4 * x ≠ 0 := mul_ne_zero (pow_ne_zero _ hv) hx
  have hchi : ((v ^ 4 * x) ^ ((P - 1) / 2)) ^ 2 = 1 := by
    rw [← pow_mul, P_exp2]
    exact ZMod.pow_card_sub_one_eq_one hw
  rw [sqrt_alg, ← hk]
  rcases sq_one hchi with h | h
  · left; rw [h, one_mul]
  · right; rw [h, neg_one_mul]

theorem neg_parity {x : F} (hx : x ≠ 0) : (-x).val % 2 = 1 ↔ ¬ x.val % 2 = 1 := by
  have hv : (-x).val = P - x.val := by rw [ZMod.neg_val, if_neg hx]
  have hv0 : x.val ≠ 0 := fun h0 => hx ((ZMod.val_eq_zero _).mp h0)
  have hlt := ZMod.val_lt x
  have hodd : P % 2 = 1 := by decide +kernel
  omega

theorem encode_length (g : Point) : (encode g).length = 32 := by unfold encode; simp

theorem leNat_encode (g : Point) : leNat (encode g) = g.y.val + (if g.x.val % 2 = 1 then 2 ^ 255 else 0) := by
  unfold encode; rw [leNat_leFixed, enc_mod]

/-- Decompression of the encoding of a point represents that point. -/
theorem fromBytes_encode (g : Point) : ∃ e, fromBytes (encode g) = some e ∧ Rep e g := by
  have ly := ZMod.val_lt g.y
  have hP := P_lt
  have hy : feFromBytes (encode g) = g.y.val := by
    unfold feFromBytes; rw [leNat_encode]; split <;> omega
  have hsign : ((encode g).getD 31 0).toNat / 128 = 1 ↔ g.x.val % 2 = 1 := by
    have h1 := leNat_split31 (encode g) (encode_length g)
    have h2 : leNat ((encode g).take 31) < 256 ^ 31 := by
      have := leNat_lt ((encode g).take 31)
      rwa [List.length_take, encode_length] at this
    rw [leNat_encode] at h1
    have p31 : (256 : Nat) ^ 31 * 128 = 2 ^ 255 := by norm_num
    generalize ((encode g).getD 31 0).toNat = b at *
    generalize leNat ((encode g).take 31) = l at *
    generalize (256 : Nat) ^ 31 = q at *
    generalize (2 : Nat) ^ 255 = Q at *
    subst p31
    constructor
    · intro hb
      by_contra hc
      rw [if_neg hc] at h1
      have : q * 128 ≤ q * b := Nat.mul_le_mul_left _ (by omega)
      omega
    · intro hx
      rw [if_pos hx] at h1
      have : 128 ≤ b := by
        by_contra hc
        have : q * b ≤ q * 127 := Nat.mul_le_mul_left _ (by omega)
        omega
      have : b < 256 := by
        by_contra hc
        have : q * 256 ≤ q * b := Nat.mul_le_mul_left _ (by omega)
        omega
      omega
  have hyc : ((g.y.val : Nat) : F) = g.y := ZMod.natCast_zmod_val _
  have hv := v_ne_zero g.y
  have hon : (1 + d * g.y ^ 2) * g.x ^ 2 = g.y ^ 2 - 1 := by
    have := g.on; unfold OnC at this; linear_combination -this
  have hd : ((dN : Nat) : F) = d := rfl
  obtain ⟨x0, hx0⟩ : ∃ x0 : Nat, x0 = feMul (feMul (fePow22523 (feMul (feMul (feMul
      (feMul (feMul (feAdd (feMul (feMul g.y.val g.y.val) dN) 1) (feAdd (feMul (feMul g.y.val g.y.val) dN) 1))
        (feAdd (feMul (feMul g.y.val g.y.val) dN) 1))
      (feMul (feMul (feAdd (feMul (feMul g.y.val g.y.val) dN) 1) (feAdd (feMul (feMul g.y.val g.y.val) dN) 1))
        (feAdd (feMul (feMul g.y.val g.y.val) dN) 1))) (feAdd (feMul (feMul g.y.val g.y.val) dN) 1))
        (feSub (feMul g.y.val g.y.val) 1)))
      (feMul (feMul (feAdd (feMul (feMul g.y.val g.y.val) dN) 1) (feAdd (feMul (feMul g.y.val g.y.val) dN) 1))
        (feAdd (feMul (feMul g.y.val g.y.val) dN) 1))) (feSub (feMul g.y.val g.y.val) 1) := ⟨_, rfl⟩
  have hβ := sqrt_formula g.x (1 + d * g.y ^ 2) hv ((P - 5) / 8) P_exp1
  have cx0 : (x0 : F) = ((1 + d * g.y ^ 2) ^ 3 * (1 + d * g.y ^ 2) ^ 3 * (1 + d * g.y ^ 2) *
      ((1 + d * g.y ^ 2) * g.x ^ 2)) ^ ((P - 5) / 8) * (1 + d * g.y ^ 2) ^ 3 * ((1 + d * g.y ^ 2) * g.x ^ 2) := by
    rw [hx0, hon]
    simp only [cast_feMul, cast_fePow22523, cast_feAdd, cast_feSub, hyc, hd, Nat.cast_one]
    have e1 : g.y * g.y * d + 1 = 1 + d * g.y ^ 2 := by ring
    have e2 : g.y * g.y - 1 = g.y ^ 2 - 1 := by ring
    have e3 : ∀ w : F, w * w * w = w ^ 3 := fun w => by ring
    rw [e1, e2, e3]
  rw [← cx0, hon] at hβ
  -- the sign correction yields g.x from any square root
  have fixed : ∀ x : Nat, ((x : F) - g.x) * ((x : F) + g.x) = 0 →
      (((if feIsNegative x = decide (((encode g).getD 31 0).toNat / 128 = 1) then x else feNeg x : Nat)) : F) = g.x := by
    intro x hx
    rw [feIsNegative_val]
    by_cases hz : g.x = 0
    · have : (x : F) = 0 := by rw [hz] at hx; simpa using hx
      split <;> simp [this, hz]
    · rcases mul_eq_zero.1 hx with h | h
      · have e : (x : F) = g.x := by linear_combination h
        rw [if_pos (by rw [e]; exact decide_eq_decide.2 hsign.symm), e]
      · have e : (x : F) = -g.x := by linear_combination h
        rw [if_neg, cast_feNeg, e, neg_neg]
        rw [e, decide_eq_decide, neg_parity hz, hsign]
        by_cases hp : g.x.val % 2 = 1 <;> simp [hp]
  have rep : ∀ x : Nat, (x : F) = g.x → Rep ⟨x, g.y.val, 1, feMul x g.y.val⟩ g := fun x hx =>
    ⟨by simp, by simp [hx], by simp [hyc], by simp [hx, hyc]⟩
  have root : ∀ w : F, w ^ 2 * (1 + d * g.y ^ 2) = g.y ^ 2 - 1 → (w - g.x) * (w + g.x) = 0 := by
    intro w hw
    have : (1 + d * g.y ^ 2) * ((w - g.x) * (w + g.x)) = 0 := by linear_combination hw - hon
    exact (mul_eq_zero.1 this).resolve_left hv
  have e1 : ((feSub (feMul (feMul x0 x0) (feAdd (feMul (feMul g.y.val g.y.val) dN) 1))
      (feSub (feMul g.y.val g.y.val) 1) : Nat) : F) = (x0 : F) ^ 2 * (1 + d * g.y ^ 2) - (g.y ^ 2 - 1) := by
    simp only [cast_feMul, cast_feAdd, cast_feSub, hyc, hd, Nat.cast_one]; ring
  have e2 : ((feAdd (feMul (feMul x0 x0) (feAdd (feMul (feMul g.y.val g.y.val) dN) 1))
      (feSub (feMul g.y.val g.y.val) 1) : Nat) : F) = (x0 : F) ^ 2 * (1 + d * g.y ^ 2) + (g.y ^ 2 - 1) := by
    simp only [cast_feMul, cast_feAdd, cast_feSub, hyc, hd, Nat.cast_one]; ring
  unfold fromBytes
  simp only [hy]
  rw [← hx0]
  by_cases hc : (x0 : F) ^ 2 * (1 + d * g.y ^ 2) - (g.y ^ 2 - 1) = 0
  · rw [if_pos (by rw [mod_eq_zero_iff, e1]; exact hc)]
    exact ⟨_, rfl, rep _ (fixed x0 (root _ (by linear_combination hc)))⟩
  · have h2 : (x0 : F) ^ 2 * (1 + d * g.y ^ 2) = -(g.y ^ 2 - 1) :=
      hβ.resolve_left (fun h => hc (by linear_combination h))
    rw [if_neg (by rw [mod_eq_zero_iff, e1]; exact hc), if_pos (by rw [mod_eq_zero_iff, e2]; linear_combination h2)]
    refine ⟨_, rfl, rep _ (fixed _ (root _ ?_))⟩
    rw [cast_feMul]
    linear_combination (x0 : F) ^ 2 * (1 + d * g.y ^ 2) * sqrtM1_sq - h2

/-- Whatever decompression returns represents a point with the encoded y-coordinate and sign. -/
theorem fromBytes_sound {s : Bytes} {e : Ext} (h : fromBytes s = some e) : ∃ g : Point, Rep e g ∧
    g.y = ((feFromBytes s : Nat) : F) ∧ (g.x ≠ 0 → (g.x.val % 2 = 1 ↔ (s.getD 31 0).toNat / 128 = 1)) := by
  have hd : ((dN : Nat) : F) = d := rfl
  unfold fromBytes at h
  simp only at h
  generalize feFromBytes s = y at *
  generalize hx0 : feMul (feMul (fePow22523 (feMul (feMul (feMul
      (feMul (feMul (feAdd (feMul (feMul y y) dN) 1) (feAdd (feMul (feMul y y) dN) 1))
        (feAdd (feMul (feMul y y) dN) 1))
      (feMul (feMul (feAdd (feMul (feMul y y) dN) 1) (feAdd (feMul (feMul y y) dN) 1))
        (feAdd (feMul (feMul y y) dN) 1))) (feAdd (feMul (feMul y y) dN) 1))
        (feSub (feMul y y) 1)))
      (feMul (feMul (feAdd (feMul (feMul y y) dN) 1) (feAdd (feMul (feMul y y) dN) 1))
        (feAdd (feMul (feMul y y) dN) 1))) (feSub (feMul y y) 1) = x0 at h
  clear hx0
  have e1 : ((feSub (feMul (feMul x0 x0) (feAdd (feMul (feMul y y) dN) 1))
      (feSub (feMul y y) 1) : Nat) : F) = (x0 : F) ^ 2 * (1 + d * (y : F) ^ 2) - ((y : F) ^ 2 - 1) := by
    simp only [cast_feMul, cast_feAdd, cast_feSub, hd, Nat.cast_one]; ring
  have e2 : ((feAdd (feMul (feMul x0 x0) (feAdd (feMul (feMul y y) dN) 1))
      (feSub (feMul y y) 1) : Nat) : F) = (x0 : F) ^ 2 * (1 + d * (y : F) ^ 2) + ((y : F) ^ 2 - 1) := by
    simp only [cast_feMul, cast_feAdd, cast_feSub, hd, Nat.cast_one]; ring
  have key : ∀ x : Nat, (x : F) ^ 2 * (1 + d * (y : F) ^ 2) = (y : F) ^ 2 - 1 →
      some (⟨if feIsNegative x = decide ((s.getD 31 0).toNat / 128 = 1) then x else feNeg x, y, 1,
        feMul (if feIsNegative x = decide ((s.getD 31 0).toNat / 128 = 1) then x else feNeg x) y⟩ : Ext) = some e →
      ∃ g : Point, Rep e g ∧ g.y = ((y : Nat) : F) ∧ (g.x ≠ 0 → (g.x.val % 2 = 1 ↔ (s.getD 31 0).toNat / 128 = 1)) := by
    intro x hx he
    rw [Option.some.injEq] at he
    subst he
    generalize hb : decide ((s.getD 31 0).toNat / 128 = 1) = b
    have hs : ((s.getD 31 0).toNat / 128 = 1) ↔ b = true := by rw [← hb, decide_eq_true_eq]
    rw [hs]
    generalize hw : (if feIsNegative x = b then x else feNeg x) = w
    have hsq : (w : F) ^ 2 = (x : F) ^ 2 := by
      rw [← hw]; split
      · rfl
      · rw [cast_feNeg]; ring
    refine ⟨⟨(w : F), (y : F), ?_⟩, ⟨by simp, by simp, by simp, by simp⟩, rfl, ?_⟩
    · unfold OnC
      rw [hsq]; linear_combination -hx
    · intro hne
      have hne : (w : F) ≠ 0 := hne
      change (w : F).val % 2 = 1 ↔ _
      rw [← hw] at hne ⊢
      rw [feIsNegative_val] at *
      split
      next hc => rw [← hc, decide_eq_true_eq]
      next hc =>
        rw [if_neg hc] at hne
        rw [cast_feNeg] at hne ⊢
        rw [neg_parity (by intro h0; rw [h0] at hne; simp at hne)]
        by_cases hq : (x : F).val % 2 = 1
        · rw [decide_eq_true hq] at hc
          exact ⟨fun h1 => absurd hq h1, fun h1 => absurd h1.symm hc⟩
        · rw [decide_eq_false hq] at hc
          exact ⟨fun _ => by cases b <;> [exact absurd rfl hc; rfl], fun _ => hq⟩
  split at h
  next hc =>
    rw [mod_eq_zero_iff, e1] at hc
    exact key x0 (by linear_combination hc) h
  next hc =>
    split at h
    next hc2 =>
      rw [mod_eq_zero_iff, e2] at hc2
      refine key _ ?_ h
      rw [cast_feMul]
      linear_combination (x0 : F) ^ 2 * (1 + d * (y : F) ^ 2) * sqrtM1_sq - hc2
    next => exact nomatch h

theorem rep_neg {e : Ext} {g : Point} (h : Rep e g) : Rep ⟨feNeg e.X, e.Y, e.Z, feNeg e.T⟩ (-g) where
  z := h.z
  x := by simp only [cast_feNeg, h.x]; change _ = -g.x * _; ring
  y := h.y
  t := by simp only [cast_feNeg, h.t]; change _ = -g.x * g.y * _; ring

theorem leNat_scReduce (s : Bytes) : leNat (scReduce s) = leNat s % ord := by
  unfold scReduce
  rw [leNat_leFixed]
  apply Nat.mod_eq_of_lt
  have : leNat s % ord < ord := Nat.mod_lt _ ord_prime.pos
  have : ord < 256 ^ 32 := by decide +kernel
  omega

/-- Verification of a 32+32-byte signature under a public key that decompresses to `A`. -/
theorem edVerify_of (sha512 : Bytes → Bytes) (pub : Bytes) (A : Point) (e : Ext) (he : fromBytes pub = some e)
    (hrep : Rep e A) (msg R S : Bytes) (hR : R.length = 32) (hS : S.length = 32) :
    edVerify sha512 pub msg (R ++ S) = true ↔
      leNat S < 2 ^ 253 ∧ R = encode (leNat S • B - (leNat (sha512 (R ++ pub ++ msg)) % ord) • A) := by
  have h63 : ((R ++ S).getD 63 0) = S.getD 31 0 := by
    rw [List.getD_eq_getElem?_getD, List.getElem?_append_right (by omega), hR, ← List.getD_eq_getElem?_getD]
  have htake : (R ++ S).take 32 = R := by rw [← hR, List.take_left']; rfl
  have hdrop : (R ++ S).drop 32 = S := by rw [← hR, List.drop_left']; rfl
  have htop : (S.getD 31 0).toNat / 32 = 0 ↔ leNat S < 2 ^ 253 := by
    have h1 := leNat_split31 S hS
    have h2 : leNat (S.take 31) < 256 ^ 31 := by
      have := leNat_lt (S.take 31)
      rwa [List.length_take, hS] at this
    have p31 : (256 : Nat) ^ 31 * 32 = 2 ^ 253 := by norm_num
    generalize (S.getD 31 0).toNat = b at *
    generalize leNat (S.take 31) = l at *
    generalize (256 : Nat) ^ 31 = q at *
    generalize (2 : Nat) ^ 253 = Q at *
    subst p31
    constructor
    · intro hb
      have : q * b ≤ q * 31 := Nat.mul_le_mul_left _ (by omega)
      omega
    · intro hl
      by_contra hc
      have : q * 32 ≤ q * b := Nat.mul_le_mul_left _ (by omega)
      omega
  unfold edVerify
  rw [h63, htake, hdrop, he]
  simp only
  have hr := rep_toBytes (rep_add (rep_smul (leNat (scReduce (sha512 (R ++ pub ++ msg)))) (rep_neg hrep))
    (rep_smul (leNat S) rep_base))
  rw [hr, leNat_scReduce]
  by_cases ht : (S.getD 31 0).toNat / 32 = 0
  · rw [if_neg (by simpa using ht), decide_eq_true_eq]
    rw [smul_neg, neg_add_eq_sub]
    constructor
    · exact fun h => ⟨htop.1 ht, h⟩
    · exact fun h => h.2
  · rw [if_pos (by simpa using ht)]
    simp only [Bool.false_eq_true, false_iff, not_and]
    exact fun h => absurd (htop.2 h) ht

/-- Verification of a 32+32-byte signature under the encoding of `A`. -/
theorem edVerify_encode (sha512 : Bytes → Bytes) (A : Point) (msg R S : Bytes) (hR : R.length = 32) (hS : S.length = 32) :
    edVerify sha512 (encode A) msg (R ++ S) = true ↔
      leNat S < 2 ^ 253 ∧ R = encode (leNat S • B - (leNat (sha512 (R ++ encode A ++ msg)) % ord) • A) := by
  obtain ⟨e, he, hrep⟩ := fromBytes_encode A
  exact edVerify_of sha512 _ A e he hrep msg R S hR hS

end Tss.Ed
