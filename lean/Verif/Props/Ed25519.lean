import Verif.Lemmas.Ed25519Enc
import Mathlib.GroupTheory.OrderOfElement
/-
Properties C57, C58 (encodings of onsign/utils.go) and C67 (edwards25519 is a group with a base point of
prime order).
-/
namespace Tss.Ed
open Tss Edw

/-! ### Specification of edwards25519, independent of the model -/

/- The modulus `P` of `F = ZMod P` is the literal of RFC 8032. -/
example : P = 2 ^ 255 - 19 := rfl

/-- The subgroup order of RFC 8032. -/
def spec.l : Nat := 2 ^ 252 + 27742317777372353535851937790883648493

/-- The curve equation of RFC 8032, with the denominator of d = -121665/121666 cleared. -/
def spec.OnCurve (x y : F) : Prop :=
  121666 * (-x ^ 2 + y ^ 2) = 121666 - 121665 * x ^ 2 * y ^ 2

/-- RFC 8032 point encoding of canonical coordinates, as a number below 2^256. -/
def spec.encodeNat (x y : Nat) : Nat := y + 2 ^ 255 * (x % 2)

/-- The affine addition law of RFC 8032. -/
def spec.AddLaw (x1 y1 x2 y2 x3 y3 : F) : Prop :=
  x3 * (121666 - 121665 * x1 * x2 * y1 * y2) = 121666 * (x1 * y2 + x2 * y1) ∧
  y3 * (121666 + 121665 * x1 * x2 * y1 * y2) = 121666 * (y1 * y2 + x1 * x2)

theorem n121666_ne : (121666 : F) ≠ 0 := by
  have : ((121666 : Nat) : F) ≠ ((0 : Nat) : F) := by rw [Ne, natCast_eq]; decide +kernel
  exact_mod_cast this

theorem onC_iff_spec (x y : F) : OnC d x y ↔ spec.OnCurve x y := by
  unfold OnC spec.OnCurve
  have hd := d_def
  constructor
  · intro h
    linear_combination (121666 : F) * h + x ^ 2 * y ^ 2 * hd
  · intro h
    apply mul_left_cancel₀ n121666_ne
    linear_combination h - x ^ 2 * y ^ 2 * hd

/-! ### C67 -/

/-- C67: the field modulus 2^255-19 and the subgroup order are prime. -/
theorem C67_moduli_prime : Nat.Prime (2 ^ 255 - 19) ∧ Nat.Prime (2 ^ 252 + 27742317777372353535851937790883648493) := ⟨P_prime, ord_prime⟩

/-- C67: `IsOnCurve` of canonical coordinates is the curve equation of RFC 8032. -/
theorem C67_isOnCurve_iff {x y : Nat} (hx : x < P) (hy : y < P) :
    curve.isOnCurve x y = true ↔ spec.OnCurve (x : F) (y : F) := by
  have := P_lt
  rw [isOnCurve_iff, fe_eq (by omega) (by omega),
    fe_eq (by omega) (by omega), Int.toNat_natCast, Int.toNat_natCast]
  exact onC_iff_spec _ _

/-- C67: `Add` on points of the curve returns canonical coordinates of a point of the curve that satisfies
the affine addition law (whose denominators never vanish on the curve). -/
theorem C67_add_closed {x1 y1 x2 y2 : Int} (h1 : curve.isOnCurve x1 y1 = true) (h2 : curve.isOnCurve x2 y2 = true) :
    ∃ x3 y3 : Nat, curve.add x1 y1 x2 y2 = ((x3 : Int), (y3 : Int)) ∧ x3 < P ∧ y3 < P ∧
      curve.isOnCurve x3 y3 = true ∧
      spec.AddLaw (fe x1 : F) (fe y1 : F) (fe x2 : F) (fe y2 : F) (x3 : F) (y3 : F) ∧
      (121666 - 121665 * (fe x1 : F) * fe x2 * fe y1 * fe y2 ≠ 0) ∧
      (121666 + 121665 * (fe x1 : F) * fe x2 * fe y1 * fe y2 ≠ 0) := by
  have e := lawful.add_eq x1 y1 x2 y2 h1 h2
  change _ = coords (toPt x1 y1 + toPt x2 y2) at e
  have on := lawful.onCurve_coords (toPt x1 y1 + toPt x2 y2)
  have da := den_add complete (toPt x1 y1).on (toPt x2 y2).on
  have ds := den_sub complete (toPt x1 y1).on (toPt x2 y2).on
  have ex : (toPt x1 y1 + toPt x2 y2).x = _ / _ := rfl
  have ey : (toPt x1 y1 + toPt x2 y2).y = _ / _ := rfl
  rw [toPt_x h1, toPt_x h2, toPt_y h1, toPt_y h2] at *
  have hd := d_def
  have n0 := n121666_ne
  refine ⟨_, _, e, ZMod.val_lt _, ZMod.val_lt _, on, ⟨?_, ?_⟩, ?_, ?_⟩
  · rw [ZMod.natCast_zmod_val, ex, div_mul_eq_mul_div, div_eq_iff da]
    linear_combination ((fe x1 : F) * fe y2 + fe y1 * fe x2) * (-(fe x1 : F) * fe x2 * fe y1 * fe y2) * hd
  · rw [ZMod.natCast_zmod_val, ey, div_mul_eq_mul_div, div_eq_iff ds]
    linear_combination ((fe y1 : F) * fe y2 + fe x1 * fe x2) * ((fe x1 : F) * fe x2 * fe y1 * fe y2) * hd
  · intro h
    apply mul_ne_zero n0 da
    linear_combination h + (fe x1 : F) * fe x2 * fe y1 * fe y2 * hd
  · intro h
    apply mul_ne_zero n0 ds
    linear_combination h - (fe x1 : F) * fe x2 * fe y1 * fe y2 * hd

/-- C67: `Add` is commutative on the curve. -/
theorem C67_add_comm {x1 y1 x2 y2 : Int} (h1 : curve.isOnCurve x1 y1 = true) (h2 : curve.isOnCurve x2 y2 = true) :
    curve.add x1 y1 x2 y2 = curve.add x2 y2 x1 y1 := by
  rw [lawful.add_eq _ _ _ _ h1 h2, lawful.add_eq _ _ _ _ h2 h1, add_comm]

/-- C67: `Add` is associative on the curve. -/
theorem C67_add_assoc {x1 y1 x2 y2 x3 y3 : Int} (h1 : curve.isOnCurve x1 y1 = true)
    (h2 : curve.isOnCurve x2 y2 = true) (h3 : curve.isOnCurve x3 y3 = true) :
    curve.add (curve.add x1 y1 x2 y2).1 (curve.add x1 y1 x2 y2).2 x3 y3 =
      curve.add x1 y1 (curve.add x2 y2 x3 y3).1 (curve.add x2 y2 x3 y3).2 := by
  rw [lawful.add_eq _ _ _ _ h1 h2, lawful.add_eq _ _ _ _ h2 h3,
    lawful.add_eq _ _ _ _ (lawful.onCurve_coords _) h3, lawful.add_eq _ _ _ _ h1 (lawful.onCurve_coords _),
    lawful.toG_coords, lawful.toG_coords, add_assoc]

/-- C67: (0,1) is neutral for canonical coordinates, and (-x, y) is the inverse of (x, y). -/
theorem C67_identity_inverse {x y : Nat} (hx : x < P) (hy : y < P) (h : curve.isOnCurve x y = true) :
    curve.add x y 0 1 = ((x : Int), (y : Int)) ∧
    ∃ x' : Nat, x' < P ∧ curve.isOnCurve x' y = true ∧ (x + x') % P = 0 ∧ curve.add x y x' y = (0, 1) := by
  have z : curve.isOnCurve 0 1 = true := by decide +kernel
  have hP := P_lt
  have fx : fe (x : Int) = x := by
    rw [fe_eq (by omega) (by omega)]; exact Int.toNat_natCast _
  have fy : fe (y : Int) = y := by
    rw [fe_eq (by omega) (by omega)]; exact Int.toNat_natCast _
  have tz : toPt 0 1 = 0 := by
    have f0 : fe 0 = 0 := by decide +kernel
    have f1 : fe 1 = 1 := by decide +kernel
    ext
    · rw [toPt_x z, f0]; simp
    · rw [toPt_y z, f1]; simp
  have hself : coords (toPt x y) = ((x : Int), (y : Int)) := by
    unfold coords
    rw [toPt_x h, toPt_y h, fx, fy, ZMod.val_natCast, ZMod.val_natCast, Nat.mod_eq_of_lt hx, Nat.mod_eq_of_lt hy]
  constructor
  · rw [lawful.add_eq _ _ _ _ h z]
    change coords (toPt x y + toPt 0 1) = _
    rw [tz, add_zero, hself]
  · have hn : coords (-toPt x y) = ((((-(x : F)).val : Nat) : Int), (y : Int)) := by
      have : coords (-toPt x y) = ((((-(toPt x y).x).val : Nat) : Int), (((toPt x y).y.val : Nat) : Int)) := rfl
      rw [this, toPt_x h, toPt_y h, fx, fy, ZMod.val_natCast, Nat.mod_eq_of_lt hy]
    have on : curve.isOnCurve (((-(x : F)).val : Nat) : Int) y = true := by
      have := lawful.onCurve_coords (-toPt x y)
      change curve.isOnCurve (coords _).1 (coords _).2 = true at this
      rwa [hn] at this
    refine ⟨(-(x : F)).val, ZMod.val_lt _, on, ?_, ?_⟩
    · have : ((x + (-(x : F)).val : Nat) : F) = 0 := by push_cast; rw [ZMod.natCast_zmod_val]; ring
      rw [ZMod.natCast_eq_zero_iff] at this
      exact Nat.mod_eq_zero_of_dvd this
    · have e : toPt (((-(x : F)).val : Nat) : Int) y = -toPt x y := by
        have := lawful.toG_coords (-toPt x y)
        change toPt (coords _).1 (coords _).2 = _ at this
        rwa [hn] at this
      rw [lawful.add_eq _ _ _ _ h on]
      change coords (toPt x y + toPt _ y) = _
      rw [e, add_neg_cancel]
      decide +kernel

/-- C67: multiplication of the base point by `k` is the identity (0,1) exactly for multiples of the prime
subgroup order: the base point has order l. -/
theorem C67_base_order (k : Bytes) : curve.scalarBaseMult k = (0, 1) ↔ spec.l ∣ beNat k := by
  have e : curve.scalarBaseMult k = coords (beNat k • B) := rep_affine (rep_smul _ rep_base)
  have hz : coords 0 = (0, 1) := by decide +kernel
  have inj : ∀ g h : Point, coords g = coords h → g = h := by
    intro g h hh
    have g1 := lawful.toG_coords g
    have h1 := lawful.toG_coords h
    change toPt (coords g).1 (coords g).2 = g at g1
    change toPt (coords h).1 (coords h).2 = h at h1
    rw [← g1, ← h1, hh]
  have ho : addOrderOf B = ord := by
    have : Fact (Nat.Prime ord) := ⟨ord_prime⟩
    exact addOrderOf_eq_prime ord_smul_B B_ne_zero
  rw [e, ← hz]
  constructor
  · intro h
    have := addOrderOf_dvd_of_nsmul_eq_zero (inj _ _ h)
    rwa [ho] at this
  · rintro ⟨m, hm⟩
    rw [hm]
    change coords ((ord * m) • B) = _
    rw [mul_comm, mul_nsmul', ord_smul_B, smul_zero]

/-- C67: scalar multiplication is iterated addition, for every point of the curve and every scalar. -/
theorem C67_scalarMult_iterated {x y : Int} (h : curve.isOnCurve x y = true) (k k' : Bytes) (hk : beNat k' = beNat k + 1) :
    curve.scalarMult x y k' = curve.add (curve.scalarMult x y k).1 (curve.scalarMult x y k).2 x y := by
  rw [lawful.scalarMult_eq _ _ _ h, lawful.scalarMult_eq _ _ _ h, hk,
    lawful.add_eq _ _ _ _ (lawful.onCurve_coords _) h, lawful.toG_coords, succ_nsmul]

/-- C67: the group of the model's curve, as used by every protocol theorem. -/
theorem C67_lawful : Nonempty (Lawful curve Point) := ⟨lawful⟩

/-- The hypotheses of the C67 theorems hold of the base point. -/
example : curve.isOnCurve (Bx : Nat) (By : Nat) = true ∧ Bx < P ∧ By < P := by decide +kernel

/-! ### C57 -/

/-- C57: `encodedBytesToBigInt` inverts `bigIntToEncodedBytes` on 0 ≤ a < 2^256. -/
theorem C57_roundtrip {a : Int} (h0 : 0 ≤ a) (h : a < 2 ^ 256) :
    encodedBytesToBigInt (bigIntToEncodedBytes (some a)) = a := by
  have := leNat_bigIntToEncodedBytes (a := a) (by omega)
  unfold encodedBytesToBigInt
  rw [← leNat_reverse, List.reverse_reverse, this]; omega

/-- C57: the encoding of 0 ≤ a < 2^256 is its 32-byte little-endian representation. -/
theorem C57_littleEndian {a : Int} (h0 : 0 ≤ a) (h : a < 2 ^ 256) :
    (bigIntToEncodedBytes (some a)).length = 32 ∧
      ∀ i < 32, ((bigIntToEncodedBytes (some a)).getD i 0).toNat = a.toNat / 256 ^ i % 256 := by
  refine ⟨bigIntToEncodedBytes_length _, ?_⟩
  intro i hi
  rw [bigIntToEncodedBytes_eq (by omega), show a.natAbs = a.toNat by omega]
  have gen : ∀ (n v i : Nat), i < n → ((leFixed n v).getD i 0).toNat = v / 256 ^ i % 256 := by
    intro n
    induction n with
    | zero => intro v i hi; omega
    | succ n ih =>
      intro v i hi
      cases i with
      | zero => simp [leFixed]
      | succ i =>
        simp only [leFixed, List.getD_cons_succ]
        rw [ih _ _ (by omega), pow_succ, Nat.div_div_eq_div_mul, mul_comm]
  exact gen 32 _ i hi

/-- C57: a value of more than 32 bytes is silently truncated to its 32 most significant bytes. -/
theorem C57_truncates {a : Int} (h : 32 ≤ (intBytes a).length) :
    encodedBytesToBigInt (bigIntToEncodedBytes (some a)) = beNat ((intBytes a).take 32) := by
  unfold encodedBytesToBigInt bigIntToEncodedBytes copyBytes
  simp only [List.reverse_reverse]
  rw [if_neg (by omega)]

/-- C57: so the round trip fails for 2^256 (it returns 2^248). -/
theorem C57_no_roundtrip_beyond : ∃ a : Int, a = 2 ^ 256 ∧
    encodedBytesToBigInt (bigIntToEncodedBytes (some a)) = 2 ^ 248 := ⟨_, rfl, by decide +kernel⟩

/-- C57: the encoding of a point with canonical coordinates is RFC 8032's: 32 bytes, little-endian y, and
the parity of x in the top bit. -/
theorem C57_pointEncoding {x y : Nat} (hx : x < P) (hy : y < P) :
    (ecPointToEncodedBytes x y).length = 32 ∧ leNat (ecPointToEncodedBytes x y) = spec.encodeNat x y := by
  have hP := P_lt
  refine ⟨ecPointToEncodedBytes_length _ _, ?_⟩
  rw [leNat_ecPointToEncodedBytes]
  rw [fe_eq (by omega) (by omega), fe_eq (by omega) (by omega),
    Int.toNat_natCast, Int.toNat_natCast]
  unfold spec.encodeNat feIsNegative
  rw [Nat.mod_eq_of_lt (show x < P from hx)]
  rcases Nat.mod_two_eq_zero_or_one x with h | h <;> simp [h]

/-- C57: distinct points of the curve (in canonical coordinates) have distinct encodings. -/
theorem C57_pointEncoding_injective {x y x' y' : Nat} (hx : x < P) (hy : y < P)
    (hx' : x' < P) (hy' : y' < P) (h : curve.isOnCurve x y = true) (h' : curve.isOnCurve x' y' = true)
    (e : ecPointToEncodedBytes x y = ecPointToEncodedBytes x' y') : x = x' ∧ y = y' := by
  have can : ∀ {x y : Nat}, x < P → y < P → curve.isOnCurve x y = true →
      coords (toPt x y) = ((x : Int), (y : Int)) := by
    intro x y hx hy h
    have hP := P_lt
    unfold coords
    rw [toPt_x h, toPt_y h, fe_eq (by omega) (by omega),
      fe_eq (by omega) (by omega), Int.toNat_natCast, Int.toNat_natCast,
      ZMod.val_natCast, ZMod.val_natCast, Nat.mod_eq_of_lt hx, Nat.mod_eq_of_lt hy]
  have c1 := can hx hy h
  have c2 := can hx' hy' h'
  have e1 := ecPointToEncodedBytes_coords (toPt x y)
  have e2 := ecPointToEncodedBytes_coords (toPt x' y')
  rw [c1] at e1
  rw [c2] at e2
  simp only at e1 e2
  have := encode_injective (e1.symm.trans (e.trans e2))
  rw [this, c2] at c1
  simp only [Prod.mk.injEq, Nat.cast_inj] at c1
  exact ⟨c1.1.symm, c1.2.symm⟩

/-- C57 (what goes wrong beyond): coordinates are not required to be canonical, so the identity, accepted
by `IsOnCurve` under two coordinate pairs, has two encodings. -/
theorem C57_noncanonical_encoding : ∃ y : Int, curve.isOnCurve 0 y = true ∧ toPt 0 y = toPt 0 1 ∧
    ecPointToEncodedBytes 0 y ≠ ecPointToEncodedBytes 0 1 := by
  have h1 : curve.isOnCurve 0 1 = true := by decide +kernel
  have h2 : curve.isOnCurve 0 (P + 1 : Nat) = true := by decide +kernel
  refine ⟨(P + 1 : Nat), h2, ?_, by decide +kernel⟩
  ext
  · rw [toPt_x h1, toPt_x h2]
  · rw [toPt_y h1, toPt_y h2, natCast_eq]; decide +kernel

/-- The encoding of the base point, 5866…66 in hexadecimal. -/
example : ecPointToEncodedBytes (Bx : Nat) (By : Nat) = 0x58 :: List.replicate 31 0x66 := by decide +kernel

/-! ### C58 -/

/-- C58: whenever the random z is a unit mod p, the extended element represents the given point: its
affine coordinates are those of the point, it encodes as the point and it adds as the point. -/
theorem C58_represents {x y z : Int} (h : curve.isOnCurve x y = true) (hz : fe z % P ≠ 0) :
    (ecPointToExtendedElement x y z).affine = coords (toPt x y) ∧
    (ecPointToExtendedElement x y z).toBytes = encode (toPt x y) ∧
    ∀ (x' y' z' : Int), curve.isOnCurve x' y' = true → fe z' % P ≠ 0 →
      ((ecPointToExtendedElement x y z).add (ecPointToExtendedElement x' y' z')).affine = curve.add x y x' y' := by
  have key : ∀ {x y z : Int}, curve.isOnCurve x y = true → fe z % P ≠ 0 →
      Rep (ecPointToExtendedElement x y z) (toPt x y) := by
    intro x y z h hz
    have hz0 : ((fe z : Nat) : F) ≠ 0 := by
      rw [Ne, show (0 : F) = ((0 : Nat) : F) by simp, natCast_eq, Nat.zero_mod]; exact hz
    refine ⟨hz0, ?_, ?_, ?_⟩
    · rw [toPt_x h]; exact cast_feMul _ _
    · rw [toPt_y h]; exact cast_feMul _ _
    · rw [toPt_x h, toPt_y h]
      change ((feMul (feMul (fe x) (fe y)) (fe z) : Nat) : F) = _
      rw [cast_feMul, cast_feMul]; rfl
  refine ⟨rep_affine (key h hz), rep_toBytes (key h hz), ?_⟩
  intro x' y' z' h' hz'
  rw [rep_affine (rep_add (key h hz) (key h' hz')), lawful.add_eq _ _ _ _ h h']
  rfl

/-- C58: every non-zero value the code can draw (0 < z < N) is a unit. -/
theorem C58_draw_is_unit {z : Int} (h0 : 0 < z) (h : z < curve.N) : fe z % P ≠ 0 := by
  have hN : curve.N < 2 ^ 253 := by decide +kernel
  have hP : (2 : Nat) ^ 254 < P := by decide +kernel
  rw [fe_eq (by omega) (by omega)]
  change _ % P ≠ 0
  rw [Nat.mod_eq_of_lt (by omega)]; omega

/-- C58: the draw z = 0, which `GetRandomPositiveInt` can return, yields an element that represents no
point: any sum with it encodes as the point with y = 0. -/
theorem C58_zero_draw_breaks (x y : Int) (e : Ext) :
    ecPointToExtendedElement x y 0 = ⟨0, 0, 0, 0⟩ ∧
      (e.add (ecPointToExtendedElement x y 0)).toBytes = List.replicate 32 0 := by
  have f0 : feFromBytes (bigIntToEncodedBytes (some 0)) = 0 := by decide +kernel
  have e0 : ecPointToExtendedElement x y 0 = ⟨0, 0, 0, 0⟩ := by
    simp [ecPointToExtendedElement, f0, feMul]
  refine ⟨e0, ?_⟩
  rw [e0]
  have a0 : e.add ⟨0, 0, 0, 0⟩ = ⟨0, 0, 0, 0⟩ := by
    simp [Ext.add, feMul, feAdd, feSub]
  rw [a0]
  decide +kernel

/-- A concrete case: the base point with z = 12345. -/
example : (ecPointToExtendedElement (Bx : Nat) (By : Nat) 12345).affine = ((Bx : Int), (By : Int)) := by
  decide +kernel

end Tss.Ed
