import Verif.Model.SecpPubkey
import Verif.Props.SecpCurve
import Verif.Props.ExtKey
/-
C75: public keys of secp256k1 as byte strings.
-/
namespace Tss.Secp
open Tss spec

theorem mod_val (n : Nat) : ((n : ℕ) : ZMod p).val = n % p := ZMod.val_natCast _ _

theorem res_small {x : Int} (h0 : 0 ≤ x) (h : x < 2 ^ 256) : res x = ((x.toNat : ℕ) : ZMod p) := by
  unfold res intBytes
  have hl : (natBE x.natAbs).length ≤ 32 := natBE_length_le _ _ (by norm_num; omega)
  rw [List.take_of_length_le hl, beNat_natBE]
  congr 1
  omega

theorem rp_isOdd {f : FV} {n : Nat} (hn : f.Norm) (h : f.Rp 1 ((n : ℕ) : ZMod p)) : f.isOdd = decide (n % p % 2 = 1) := by
  have := hn.isOdd h
  rw [mod_val] at this
  rw [Bool.eq_iff_iff, this, decide_eq_true_iff]

/-- The word-level decompression is the arithmetic one. -/
theorem decompress_eq {x : Int} (h0 : 0 ≤ x) (h : x < 2 ^ 256) (odd : Bool) :
    (∀ y : Nat, Ckd.decompressPoint x.toNat odd = some y → decompress x odd = .ok (y : Int)) ∧
    (Ckd.decompressPoint x.toNat odd = none → ∃ e, decompress x odd = .error e) := by
  have hP : Ckd.secpP = p := rfl
  have h7 : (FV.setByteSlice [7]).Rp 1 ((7 : ℕ) : ZMod p) := FV.Rp.setByteSlice (b := [7]) (by decide)
  have hx := toField_rp x
  rw [res_small h0 h] at hx
  generalize x.toNat = n at hx
  have hx3 := (((hx.square (by norm_num)).mul hx (by norm_num) (by norm_num)).add h7 (by norm_num)).norm (by norm_num)
  have e3 : ((n : ℕ) : ZMod p) ^ 2 * ((n : ℕ) : ZMod p) + ((7 : ℕ) : ZMod p) = (((n ^ 3 + 7) % p : ℕ) : ZMod p) := by
    rw [ZMod.natCast_mod]; push_cast; ring
  rw [e3] at hx3
  unfold decompress Ckd.decompressPoint
  simp only
  rw [hP]
  have ha : (n ^ 3 + 7) % p < p := Nat.mod_lt _ (by decide +kernel)
  generalize (n ^ 3 + 7) % p = a at hx3 ha
  generalize (((toField x).square.mul (toField x)).add (FV.setByteSlice [7])).normalize = X3 at hx3
  obtain ⟨r3, n3⟩ := hx3
  have hy0 := (r3.sqrt (by norm_num)).norm (by norm_num)
  have ey : ((a : ℕ) : ZMod p) ^ ((p + 1) / 4) = ((powMod a ((p + 1) / 4) p : ℕ) : ZMod p) := by
    rw [powMod_eq, ZMod.natCast_mod]; push_cast; rfl
  rw [ey] at hy0
  have hb : powMod a ((p + 1) / 4) p < p := by rw [powMod_eq]; exact Nat.mod_lt _ (by decide +kernel)
  generalize powMod a ((p + 1) / 4) p = b at hy0 hb
  generalize X3.sqrt.normalize = Y0 at hy0
  obtain ⟨ry0, ny0⟩ := hy0
  rw [rp_isOdd ny0 ry0, Nat.mod_eq_of_lt hb]
  obtain ⟨c, hc, hY⟩ : ∃ c, c = (if (odd != decide (b % 2 = 1)) = true then (p - b) % p else b) ∧
      ((if (odd != decide (b % 2 = 1)) = true then (Y0.negate 1).normalize else Y0).Rp 1 ((c : ℕ) : ZMod p) ∧
       (if (odd != decide (b % 2 = 1)) = true then (Y0.negate 1).normalize else Y0).Norm) := by
    refine ⟨_, rfl, ?_⟩
    split
    · have := (ry0.neg 1 (by decide) (by decide)).norm (by decide)
      have en : -((b : ℕ) : ZMod p) = (((p - b) % p : ℕ) : ZMod p) := by
        rw [ZMod.natCast_mod, Nat.cast_sub hb.le]; simp
      rw [en] at this
      exact this
    · exact ⟨ry0, ny0⟩
  have hcp : c < p := by
    rw [hc]; split
    · exact Nat.mod_lt _ (by decide +kernel)
    · exact hb
  rw [← hc]
  generalize (if (odd != decide (b % 2 = 1)) = true then (Y0.negate 1).normalize else Y0) = Y at hY
  obtain ⟨rY, nY⟩ := hY
  have hq := (rY.square (by norm_num)).norm (by norm_num)
  have heq := hq.2.equals n3 hq.1 r3
  have e2 : ((c : ℕ) : ZMod p) ^ 2 = ((a : ℕ) : ZMod p) ↔ c * c % p = a := by
    have : ((c : ℕ) : ZMod p) ^ 2 = ((c * c : ℕ) : ZMod p) := by push_cast; ring
    rw [this, ZMod.natCast_eq_natCast_iff, Nat.ModEq, Nat.mod_eq_of_lt ha]
  rw [e2] at heq
  rw [rp_isOdd nY rY, Nat.mod_eq_of_lt hcp]
  have hbytes : beNat Y.bytes = c := by rw [nY.bytes rY, mod_val, Nat.mod_eq_of_lt hcp]
  rw [hbytes]
  by_cases hc1 : c * c % p = a
  · have ht := heq.2 hc1
    rw [if_neg (show ¬c * c % p ≠ a from fun h => h hc1)]
    rw [if_neg (show ¬(!(Y.square.normalize.equals X3)) = true by rw [ht]; decide)]
    by_cases hc2 : (odd != decide (c % 2 = 1)) = true
    · rw [if_pos hc2, if_pos hc2]
      exact ⟨fun y h => (by cases h), fun _ => ⟨_, rfl⟩⟩
    · rw [if_neg hc2, if_neg hc2]
      exact ⟨fun y h => by cases h; rfl, fun h => by cases h⟩
  · have ht : (Y.square.normalize.equals X3) = false := by
      rw [← Bool.not_eq_true]; exact fun h => hc1 (heq.1 h)
    rw [if_pos (show c * c % p ≠ a from hc1), if_pos (show (!(Y.square.normalize.equals X3)) = true by rw [ht]; rfl)]
    exact ⟨fun y h => (by cases h), fun _ => ⟨_, rfl⟩⟩

theorem decompress_ok {x : Int} (h0 : 0 ≤ x) (h : x < 2 ^ 256) (odd : Bool) (y : Int) :
    decompress x odd = .ok y ↔ (0 ≤ y ∧ y < P) ∧ (y ^ 2 - (x ^ 3 + 7)) % P = 0 ∧ (odd = true ↔ y % 2 = 1) := by
  obtain ⟨d1, d2⟩ := decompress_eq h0 h odd
  have conv : ∀ y : Nat, y * y % Ckd.secpP = (x.toNat ^ 3 + 7) % Ckd.secpP ↔ ((y : Int) ^ 2 - (x ^ 3 + 7)) % P = 0 := by
    intro y
    have hx : (x.toNat : Int) = x := by omega
    change Nat.ModEq p _ _ ↔ _
    rw [← Int.natCast_modEq_iff, Int.modEq_comm, Int.modEq_iff_dvd, Int.dvd_iff_emod_eq_zero]
    push_cast
    rw [hx, pow_two (y : Int)]
  constructor
  · intro hy
    cases hd : Ckd.decompressPoint x.toNat odd with
    | none => obtain ⟨e, he⟩ := d2 hd; rw [he] at hy; cases hy
    | some z =>
      have := d1 z hd
      rw [this] at hy
      cases hy
      rw [Ckd.decompressPoint_iff] at hd
      obtain ⟨a, b, c⟩ := hd
      rw [conv] at b
      refine ⟨⟨by omega, by exact_mod_cast a⟩, b, ?_⟩
      rw [c]; omega
  · rintro ⟨⟨a1, a2⟩, b, c⟩
    obtain ⟨z, rfl⟩ : ∃ z : Nat, y = z := ⟨y.toNat, by omega⟩
    apply d1
    rw [Ckd.decompressPoint_iff]
    refine ⟨by exact_mod_cast a2, (conv z).2 b, ?_⟩
    rw [c]; omega

theorem padded_int {x : Int} (h0 : 0 ≤ x) (h : x < 2 ^ 256) :
    (padded 32 (intBytes x)).length = 32 ∧ (beNat (padded 32 (intBytes x)) : Int) = x := by
  have hl : (intBytes x).length ≤ 32 := by
    unfold intBytes; exact natBE_length_le _ _ (by norm_num; omega)
  unfold padded
  refine ⟨by simp; omega, ?_⟩
  rw [beNat_zeros_append, beNat_intBytes]
  omega

theorem padded_of {b : Bytes} (h : b.length = 32) : padded 32 (intBytes (beNat b : Int)) = b := by
  have hlt := beNat_lt b
  rw [h] at hlt
  obtain ⟨l, e⟩ := padded_int (x := (beNat b : Int)) (by omega) (by norm_num at hlt ⊢; exact_mod_cast hlt)
  exact beNat_inj _ _ (by rw [l, h]) (by exact_mod_cast e)

theorem beNat_lt' {b : Bytes} (h : b.length = 32) : (beNat b : Int) < 2 ^ 256 := by
  have := beNat_lt b
  rw [h] at this
  norm_num at this ⊢
  exact_mod_cast this

theorem p_lt : (P : Int) < 2 ^ 256 := by decide

theorem curveP_eq : curveP = P := by decide +kernel

/-- The acceptance conditions of the 65-byte case. -/
theorem parse65_ok (f : UInt8) (rest : Bytes) (A : ECPoint) :
    parse65 f rest = .ok A ↔ (f &&& 0xfe = 4 ∨ f &&& 0xfe = 6) ∧ A.x = beNat (rest.take 32) ∧ A.y = beNat (rest.drop 32) ∧
      (f &&& 0xfe = 6 → ((f &&& 1 == 1) = true ↔ A.y % 2 = 1)) ∧ A.x < P ∧ A.y < P ∧ (A.y ^ 2 - (A.x ^ 3 + 7)) % P = 0 := by
  obtain ⟨ax, ay⟩ := A
  unfold parse65
  simp only
  rw [curveP_eq]
  have hx0 : (0 : Int) ≤ (beNat (rest.take 32) : Int) := by omega
  have hy0 : (0 : Int) ≤ (beNat (rest.drop 32) : Int) := by omega
  generalize (beNat (rest.take 32) : Int) = x at *
  generalize (beNat (rest.drop 32) : Int) = y at *
  by_cases h1 : f &&& 0xfe ≠ 4 ∧ f &&& 0xfe ≠ 6
  · rw [if_pos h1]
    constructor
    · intro h; cases h
    · rintro ⟨h | h, -⟩
      · exact absurd h h1.1
      · exact absurd h h1.2
  rw [if_neg h1]
  have h1' : f &&& 0xfe = 4 ∨ f &&& 0xfe = 6 := by
    by_contra hh; push Not at hh; exact h1 hh
  have hodd : bigOdd y = true ↔ y % 2 = 1 := by unfold bigOdd; simp
  by_cases h2 : f &&& 0xfe = 6 ∧ (f &&& 1 == 1) ≠ bigOdd y
  · rw [if_pos h2]
    constructor
    · intro h; cases h
    · rintro ⟨-, rfl, rfl, h, -⟩
      refine absurd ?_ h2.2
      rw [Bool.eq_iff_iff, hodd]; exact h h2.1
  rw [if_neg h2]
  have h2' : f &&& 0xfe = 6 → ((f &&& 1 == 1) = true ↔ y % 2 = 1) := by
    intro h6
    rw [← hodd, ← Bool.eq_iff_iff]
    by_contra hh
    exact h2 ⟨h6, hh⟩
  by_cases h3 : x ≥ P
  · rw [if_pos h3]
    constructor
    · intro h; cases h
    · rintro ⟨-, rfl, rfl, -, h, -⟩; omega
  rw [if_neg h3]
  by_cases h4 : y ≥ P
  · rw [if_pos h4]
    constructor
    · intro h; cases h
    · rintro ⟨-, rfl, rfl, -, -, h, -⟩; omega
  rw [if_neg h4]
  have hc := (C73_isOnCurve x y ⟨hx0, by omega⟩ ⟨hy0, by omega⟩).1
  change isOnCurve x y = true ↔ _ at hc
  by_cases h5 : isOnCurve x y = true
  · rw [if_neg (by rw [h5]; decide)]
    constructor
    · intro h; cases h
      exact ⟨h1', rfl, rfl, h2', by omega, by omega, hc.1 h5⟩
    · rintro ⟨-, rfl, rfl, -⟩; rfl
  · rw [if_pos (by rw [Bool.not_eq_true] at h5; rw [h5]; rfl)]
    constructor
    · intro h; cases h
    · rintro ⟨-, rfl, rfl, -, -, -, h⟩; exact absurd (hc.2 h) h5

theorem fmt2 (f : UInt8) : f &&& 0xfe = 2 ↔ f = 2 ∨ f = 3 :=
  Ckd.uint8_all (fun f => f &&& 0xfe = 2 ↔ f = 2 ∨ f = 3) (by decide +kernel) f

theorem fmt4 (f : UInt8) : f &&& 0xfe = 4 ↔ f = 4 ∨ f = 5 :=
  Ckd.uint8_all (fun f => f &&& 0xfe = 4 ↔ f = 4 ∨ f = 5) (by decide +kernel) f

theorem fmt6 (f : UInt8) : f &&& 0xfe = 6 ↔ f = 6 ∨ f = 7 :=
  Ckd.uint8_all (fun f => f &&& 0xfe = 6 ↔ f = 6 ∨ f = 7) (by decide +kernel) f

/-- The acceptance conditions of the 33-byte case. -/
theorem parse33_ok (f : UInt8) (rest : Bytes) (hl : rest.length = 32) (A : ECPoint) :
    parse33 f rest = .ok A ↔ (f = 2 ∨ f = 3) ∧ A.x = beNat rest ∧ (f = 3 ↔ A.y % 2 = 1) ∧
      (0 ≤ A.y ∧ A.y < P) ∧ (A.y ^ 2 - (A.x ^ 3 + 7)) % P = 0 := by
  obtain ⟨ax, ay⟩ := A
  unfold parse33
  simp only
  by_cases h1 : f &&& 0xfe = 2
  · rw [if_neg (not_not_intro h1)]
    have h1' := (fmt2 f).1 h1
    have hb : (f &&& 1 == 1) = true ↔ f = 3 := by rcases h1' with rfl | rfl <;> decide
    have key := decompress_ok (x := (beNat rest : Int)) (by omega) (beNat_lt' hl) (f &&& 1 == 1)
    constructor
    · intro h
      cases hd : decompress (beNat rest : Int) (f &&& 1 == 1) with
      | error e => rw [hd] at h; cases h
      | ok z =>
        rw [hd] at h; cases h
        obtain ⟨a, b, c⟩ := (key _).1 hd
        rw [hb] at c
        exact ⟨h1', rfl, c, a, b⟩
    · rintro ⟨-, rfl, c, a, b⟩
      rw [← hb] at c
      rw [(key ay).2 ⟨a, b, c⟩]
  · rw [if_pos h1]
    constructor
    · intro h; cases h
    · rintro ⟨h, -⟩; exact absurd ((fmt2 f).2 h) h1

/-- C75: exactly which byte strings are public keys, and of which point: 33 bytes 2 or 3 and an X, with the Y of that parity; 65 bytes
4 or 5 and reduced X, Y on the curve; 65 bytes 6 or 7 with the last bit telling the parity of Y. Nothing else is accepted. -/
theorem C75_parse_iff (b : Bytes) (A : ECPoint) :
    parsePubKey b = .ok A ↔
      (∃ f X, b = f :: X ∧ X.length = 32 ∧ (f = 2 ∨ f = 3) ∧ A.x = beNat X ∧ (0 ≤ A.y ∧ A.y < P) ∧ (f = 3 ↔ A.y % 2 = 1) ∧
        (A.y ^ 2 - (A.x ^ 3 + 7)) % P = 0) ∨
      (∃ f X Y, b = f :: (X ++ Y) ∧ X.length = 32 ∧ Y.length = 32 ∧ (f = 4 ∨ f = 5 ∨ f = 6 ∧ A.y % 2 = 0 ∨ f = 7 ∧ A.y % 2 = 1) ∧
        A.x = beNat X ∧ A.y = beNat Y ∧ A.x < P ∧ A.y < P ∧ (A.y ^ 2 - (A.x ^ 3 + 7)) % P = 0) := by
  match b with
  | [] =>
    constructor
    · intro h; cases h
    · rintro (⟨_, _, h, -⟩ | ⟨_, _, _, h, -⟩) <;> cases h
  | f :: rest =>
    rw [show parsePubKey (f :: rest) = if rest.length = 64 then parse65 f rest else if rest.length = 32 then parse33 f rest
      else .error .length from rfl]
    by_cases h64 : rest.length = 64
    · rw [if_pos h64, parse65_ok, fmt4, fmt6]
      have l1 : (rest.take 32).length = 32 := by simp; omega
      have l2 : (rest.drop 32).length = 32 := by simp; omega
      constructor
      · rintro ⟨hf, hx, hy, hp, h1, h2, h3⟩
        refine .inr ⟨f, rest.take 32, rest.drop 32, by rw [List.take_append_drop], l1, l2, ?_, hx, hy, h1, h2, h3⟩
        rcases hf with (hf | hf) | (hf | hf)
        · exact .inl hf
        · exact .inr (.inl hf)
        · refine .inr (.inr (.inl ⟨hf, ?_⟩))
          have := hp (.inl hf)
          subst hf
          have h' : ¬A.y % 2 = 1 := fun h => by have := this.2 h; revert this; decide
          omega
        · refine .inr (.inr (.inr ⟨hf, ?_⟩))
          have := hp (.inr hf)
          subst hf
          exact this.1 (by decide)
      · rintro (⟨g, X, e, hl, -⟩ | ⟨g, X, Y, e, hX, hY, hf, hx, hy, h1, h2, h3⟩)
        · cases e; omega
        · cases e
          have t1 : (X ++ Y).take 32 = X := by rw [← hX]; exact List.take_left
          have t2 : (X ++ Y).drop 32 = Y := by rw [← hX]; exact List.drop_left
          rw [t1, t2]
          refine ⟨?_, hx, hy, ?_, h1, h2, h3⟩
          · rcases hf with h | h | ⟨h, -⟩ | ⟨h, -⟩
            · exact .inl (.inl h)
            · exact .inl (.inr h)
            · exact .inr (.inl h)
            · exact .inr (.inr h)
          · rcases hf with h | h | ⟨h, e⟩ | ⟨h, e⟩
            · subst h; intro h; exact absurd h (by decide)
            · subst h; intro h; exact absurd h (by decide)
            · subst h; intro _
              constructor
              · intro h; exact absurd h (by decide)
              · omega
            · subst h; intro _
              exact ⟨fun _ => e, fun _ => by decide⟩
    · rw [if_neg h64]
      by_cases h32 : rest.length = 32
      · rw [if_pos h32, parse33_ok f rest h32]
        constructor
        · rintro ⟨a, b, c, d, e⟩
          exact .inl ⟨f, rest, rfl, h32, a, b, d, c, e⟩
        · rintro (⟨g, X, e, hl, a, b, d, c, e'⟩ | ⟨g, X, Y, e, hX, hY, -⟩)
          · cases e; exact ⟨a, b, c, d, e'⟩
          · cases e; rw [List.length_append] at h64; omega
      · rw [if_neg h32]
        constructor
        · intro h; cases h
        · rintro (⟨g, X, e, hl, -⟩ | ⟨g, X, Y, e, hX, hY, -⟩)
          · cases e; exact absurd hl h32
          · cases e; rw [List.length_append] at h64; omega

theorem affine_bounds {Q : Secp256k1.Point} {x y : Int} (h : affine Q = (x, y)) : (0 ≤ x ∧ x < P) ∧ 0 ≤ y ∧ y < P := by
  cases Q with
  | zero => cases h; decide
  | some X Y hh =>
    cases h
    have h1 := ZMod.val_lt X
    have h2 := ZMod.val_lt Y
    exact ⟨⟨Int.natCast_nonneg _, Int.ofNat_lt.2 h1⟩, Int.natCast_nonneg _, Int.ofNat_lt.2 h2⟩

/-- C75: for every point of the curve but infinity, each of the three forms parses back to the point. -/
theorem C75_round_trip (Q : Secp256k1.Point) (hQ : Q ≠ 0) (A : ECPoint) (hA : affine Q = (A.x, A.y)) :
    parsePubKey (serializeUncompressed A) = .ok A ∧ parsePubKey (serializeCompressed A) = .ok A ∧
    parsePubKey (serializeHybrid A) = .ok A := by
  obtain ⟨hx, hy⟩ := affine_bounds hA
  have hp := p_lt
  have hon := (C73_isOnCurve A.x A.y hx hy).2.2 ⟨Q, hQ, hA⟩
  rw [(C73_isOnCurve A.x A.y hx hy).1] at hon
  obtain ⟨lx, bx⟩ := padded_int hx.1 (by omega)
  obtain ⟨ly, bY⟩ := padded_int hy.1 (by omega)
  have hodd : bigOdd A.y = true ↔ A.y % 2 = 1 := by unfold bigOdd; simp
  refine ⟨(C75_parse_iff _ _).2 (.inr ⟨_, _, _, rfl, lx, ly, .inl rfl, bx.symm, bY.symm, hx.2, hy.2, hon⟩),
    (C75_parse_iff _ _).2 (.inl ⟨_, _, rfl, lx, ?_, bx.symm, hy, ?_, hon⟩),
    (C75_parse_iff _ _).2 (.inr ⟨_, _, _, rfl, lx, ly, ?_, bx.symm, bY.symm, hx.2, hy.2, hon⟩)⟩
  · split <;> simp
  · split
    · rename_i h; simp [hodd.1 h]
    · rename_i h; rw [hodd] at h; simp [h]
  · split
    · rename_i h; simp [hodd.1 h]
    · rename_i h; rw [hodd] at h
      have : A.y % 2 = 0 := by omega
      simp [this]

/-- C75: an accepted string is one of the three forms of the parsed key (or the uncompressed form with first byte 5), so two different
strings for one key differ in form only. -/
theorem C75_canonical (b : Bytes) (A : ECPoint) (h : parsePubKey b = .ok A) :
    b = serializeCompressed A ∨ b = serializeUncompressed A ∨ b = serializeHybrid A ∨ b = 5 :: (serializeUncompressed A).tail := by
  have hodd : bigOdd A.y = true ↔ A.y % 2 = 1 := by unfold bigOdd; simp
  rcases (C75_parse_iff b A).1 h with ⟨f, X, rfl, hX, hf, hx, hy, hp, -⟩ | ⟨f, X, Y, rfl, hX, hY, hf, hx, hy, -⟩
  · left
    unfold serializeCompressed
    rw [hx, padded_of hX]
    by_cases ho : A.y % 2 = 1
    · rw [if_pos (hodd.2 ho), hp.2 ho]
    · rw [if_neg (fun h => ho (hodd.1 h))]
      rcases hf with rfl | rfl
      · rfl
      · exact absurd (hp.1 rfl) ho
  · right
    unfold serializeUncompressed serializeHybrid
    have eY : padded 32 (intBytes A.y) = Y := by rw [hy, padded_of hY]
    have eX : padded 32 (intBytes A.x) = X := by rw [hx, padded_of hX]
    rw [eX, eY]
    rcases hf with rfl | rfl | ⟨rfl, e⟩ | ⟨rfl, e⟩
    · exact .inl rfl
    · exact .inr (.inr rfl)
    · refine .inr (.inl ?_)
      rw [if_neg (fun h => by have := hodd.1 h; omega)]
    · refine .inr (.inl ?_)
      rw [if_pos (hodd.2 e)]

/-- C75: a key accepted in a 65-byte form is a point of the curve; in the 33-byte form it is when its X is reduced. -/
theorem C75_on_curve (b : Bytes) (A : ECPoint) (h : parsePubKey b = .ok A) (hb : b.length = 65 ∨ A.x < P) :
    ∃ Q : Secp256k1.Point, Q ≠ 0 ∧ affine Q = (A.x, A.y) := by
  have hA : (0 ≤ A.x ∧ A.x < P) ∧ (0 ≤ A.y ∧ A.y < P) ∧ (A.y ^ 2 - (A.x ^ 3 + 7)) % P = 0 := by
    rcases (C75_parse_iff b A).1 h with ⟨f, X, rfl, hX, hf, hx, hy, hp, ho⟩ | ⟨f, X, Y, rfl, hX, hY, hf, hx, hy, h1, h2, ho⟩
    · rcases hb with hb | hb
      · simp at hb; omega
      · exact ⟨⟨by omega, hb⟩, hy, ho⟩
    · exact ⟨⟨by omega, h1⟩, ⟨by omega, h2⟩, ho⟩
  exact (C73_isOnCurve A.x A.y hA.1 hA.2.1).2.1 ((C73_isOnCurve A.x A.y hA.1 hA.2.1).1.2 hA.2.2)

/-- C75, deviation: the compressed form accepts an X that is not reduced (X = P + 1 here, of the point with X = 1), which the 65-byte
forms refuse; the returned key keeps the unreduced X, so it is not equal to the key it denotes. -/
theorem C75_unreduced : ∃ A B : ECPoint,
    parsePubKey (2 :: beFixed 32 (P + 1)) = .ok A ∧ parsePubKey (2 :: beFixed 32 1) = .ok B ∧ A.x = P + 1 ∧ B.x = 1 ∧ A.y = B.y ∧
    pubIsEqual A B = false ∧ parsePubKey (serializeUncompressed A) = .error .xTooLarge := by
  let y : Nat := 0x4218f20ae6c646b363db68605822fb14264ca8d2587fdd6fbc750d587e76a7ee
  refine ⟨⟨P + 1, y⟩, ⟨1, y⟩, ?_, ?_, rfl, rfl, rfl, ?_, ?_⟩
  · refine (C75_parse_iff _ _).2 (.inl ⟨_, _, rfl, beFixed_length _ _, .inl rfl, ?_, ?_, ?_, ?_⟩)
    · rw [beNat_beFixed]; decide +kernel
    · decide +kernel
    · decide +kernel
    · decide +kernel
  · refine (C75_parse_iff _ _).2 (.inl ⟨_, _, rfl, beFixed_length _ _, .inl rfl, ?_, ?_, ?_, ?_⟩)
    · rw [beNat_beFixed]; decide +kernel
    · decide +kernel
    · decide +kernel
    · decide +kernel
  · decide +kernel
  · decide +kernel

theorem eqn_conv {x y : Int} {n : Nat} (hx : x = n) (hy : 0 ≤ y) :
    (y ^ 2 - (x ^ 3 + 7)) % P = 0 ↔ y.toNat * y.toNat % Ckd.secpP = (n ^ 3 + 7) % Ckd.secpP := by
  obtain ⟨m, rfl⟩ : ∃ m : Nat, y = m := ⟨y.toNat, by omega⟩
  subst hx
  change _ ↔ Nat.ModEq p _ _
  rw [← Int.natCast_modEq_iff, Int.modEq_comm, Int.modEq_iff_dvd, Int.dvd_iff_emod_eq_zero]
  push_cast
  rw [Int.toNat_natCast, pow_two (m : Int)]

/-- C75: the 33-byte form is what the extended keys of C49 use: there both models agree. -/
theorem C75_extended_keys (b : Bytes) (hb : b.length = 33) (A : ECPoint) :
    (parsePubKey b = .ok A ↔ Ckd.parsePubKey b = some A) ∧
    (parsePubKey b = .ok A → serializeCompressed A = Ckd.serializeCompressed A.x A.y) := by
  have key : parsePubKey b = .ok A ↔ Ckd.parsePubKey b = some A := by
    rw [C75_parse_iff, Ckd.parsePubKey_iff]
    constructor
    · rintro (⟨f, X, e, hX, hf, hx, hy, hp, ho⟩ | ⟨f, X, Y, rfl, hX, hY, -⟩)
      · exact ⟨f, X, e, hX, hf, hx, hy.1, hy.2, (eqn_conv hx hy.1).1 ho, hp⟩
      · simp at hb; omega
    · rintro ⟨f, X, e, hX, hf, hx, y0, y1, ho, hp⟩
      exact .inl ⟨f, X, e, hX, hf, hx, ⟨y0, y1⟩, hp, (eqn_conv hx y0).2 ho⟩
  refine ⟨key, fun h => ?_⟩
  rw [Ckd.compress_parsed (key.1 h)]
  rcases C75_canonical b A h with h' | h' | h' | h'
  · exact h'.symm
  all_goals
    rcases (C75_parse_iff b A).1 h with ⟨f, X, rfl, hX, hf, -⟩ | ⟨f, X, Y, rfl, hX, hY, -⟩
    · first
        | (have := congrArg List.head? h'; unfold serializeUncompressed at this; simp at this; subst this; simp at hf)
        | (have := congrArg List.head? h'; unfold serializeHybrid at this; simp at this; split at this <;> (subst this; simp at hf))
    · simp at hb; omega

end Tss.Secp
