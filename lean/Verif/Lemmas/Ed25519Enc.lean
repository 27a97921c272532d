import Verif.Lemmas.Ed25519
/-
The curve of decred/dcrec/edwards is a lawful curve; encodings.
-/
namespace Tss.Ed
open Tss Edw

/-! ### Byte conversions -/

theorem copyBytes_length (b : Bytes) : (copyBytes b).length = 32 := by
  unfold copyBytes
  split
  · simp; omega
  · simp; omega

theorem bigIntToEncodedBytes_length (a : Option Int) : (bigIntToEncodedBytes a).length = 32 := by
  cases a <;> simp [bigIntToEncodedBytes, copyBytes_length]

theorem leNat_bigIntToEncodedBytes {a : Int} (h : a.natAbs < 2 ^ 256) :
    leNat (bigIntToEncodedBytes (some a)) = a.natAbs := by
  have hl : (intBytes a).length ≤ 32 := natBE_length_le _ 32 (by simpa using h)
  simp only [bigIntToEncodedBytes, leNat_reverse]
  unfold copyBytes
  split
  · rw [beNat_zeros_append]; exact (by simp [intBytes])
  · next hlt =>
    rw [List.take_of_length_le hl]; simp [intBytes]

theorem bigIntToEncodedBytes_eq {a : Int} (h : a.natAbs < 2 ^ 256) :
    bigIntToEncodedBytes (some a) = leFixed 32 a.natAbs := by
  apply leNat_inj
  · rw [bigIntToEncodedBytes_length]; simp
  · rw [leNat_bigIntToEncodedBytes h, leNat_leFixed, Nat.mod_eq_of_lt]
    simpa using h

theorem feFromBytes_lt (s : Bytes) : feFromBytes s < 2 ^ 255 := Nat.mod_lt _ (by positivity)

theorem fe_eq {z : Int} (h0 : 0 ≤ z) (h : z < 2 ^ 255) : fe z = z.toNat := by
  have e : z.natAbs = z.toNat := by omega
  have h2 : z.natAbs < 2 ^ 255 := by omega
  unfold fe feFromBytes
  rw [leNat_bigIntToEncodedBytes (by omega), Nat.mod_eq_of_lt h2, e]

theorem fe_val (a : F) : fe ((a.val : Nat) : Int) = a.val := by
  have := ZMod.val_lt a
  have := P_lt
  rw [fe_eq (by omega) (by omega)]; exact Int.toNat_natCast _

/-! ### The lawful curve -/

theorem isOnCurve_iff (x y : Int) : curve.isOnCurve x y = true ↔ OnC d (fe x : F) (fe y : F) := by
  simp only [curve, decide_eq_true_eq]
  have key : ∀ a b : Nat, a < P → b < P → (a = b ↔ (a : F) = (b : F)) := by
    intro a b ha hb
    rw [natCast_eq, Nat.mod_eq_of_lt ha, Nat.mod_eq_of_lt hb]
  have ls : ∀ a b, feSub a b < P := fun a b => Nat.mod_lt _ P_prime.pos
  have la : ∀ a b, feAdd a b < P := fun a b => Nat.mod_lt _ P_prime.pos
  rw [key _ _ (ls _ _) (la _ _)]
  simp only [cast_feSub, cast_feMul, cast_feAdd]
  unfold OnC
  have hd : ((dN : Nat) : F) = d := rfl
  rw [hd]
  constructor
  · intro h; push_cast at h; linear_combination h
  · intro h; push_cast; linear_combination h

/-- The group element of on-curve coordinates. -/
noncomputable def toPt (x y : Int) : Point := by
  classical
  exact if h : OnC d (fe x : F) (fe y : F) then ⟨_, _, h⟩ else 0

theorem toPt_eq {x y : Int} (h : OnC d (fe x : F) (fe y : F)) : toPt x y = ⟨_, _, h⟩ := by
  unfold toPt; rw [dif_pos h]

theorem toPt_x {x y : Int} (h : curve.isOnCurve x y = true) : (toPt x y).x = (fe x : F) := by
  rw [toPt_eq ((isOnCurve_iff x y).mp h)]

theorem toPt_y {x y : Int} (h : curve.isOnCurve x y = true) : (toPt x y).y = (fe y : F) := by
  rw [toPt_eq ((isOnCurve_iff x y).mp h)]

theorem rep_ofXY {x y : Int} (h : curve.isOnCurve x y = true) : Rep (Ext.ofXY x y) (toPt x y) where
  z := by simp [Ext.ofXY]
  x := by rw [toPt_x h]; simp [Ext.ofXY]
  y := by rw [toPt_y h]; simp [Ext.ofXY]
  t := by rw [toPt_x h, toPt_y h]; simp [Ext.ofXY]

/-- Canonical affine coordinates of a point. -/
def coords (g : Point) : Int × Int := ((g.x.val : Nat), (g.y.val : Nat))

theorem rep_affine {e : Ext} {g : Point} (h : Rep e g) : e.affine = coords g := by
  have hx : (e.X : F) * ((feInvert e.Z : Nat) : F) = g.x := by
    rw [cast_feInvert, h.x, mul_assoc, mul_inv_cancel₀ h.z, mul_one]
  have hy : (e.Y : F) * ((feInvert e.Z : Nat) : F) = g.y := by
    rw [cast_feInvert, h.y, mul_assoc, mul_inv_cancel₀ h.z, mul_one]
  simp only [Ext.affine, coords]
  rw [feMul_val, feMul_val, hx, hy]

theorem cast_fe_val (a : F) : ((fe ((a.val : Nat) : Int) : Nat) : F) = a := by
  rw [fe_val]; simp

/-- tss.Edwards() computes in the group of points of edwards25519. -/
noncomputable def lawful : Lawful curve Point where
  toG := toPt
  coords := coords
  onCurve_coords g := by
    rw [isOnCurve_iff]; simp only [coords, cast_fe_val]; exact g.on
  toG_coords g := by
    have h : OnC d ((fe (coords g).1 : Nat) : F) ((fe (coords g).2 : Nat) : F) := by
      simp only [coords, cast_fe_val]; exact g.on
    rw [toPt_eq h]
    ext <;> simp only [coords, cast_fe_val]
  add_eq x y x' y' h h' := rep_affine (rep_add (rep_ofXY h) (rep_ofXY h'))
  scalarMult_eq x y k h := rep_affine (rep_smul _ (rep_ofXY h))
  base := B
  base_onCurve := by decide +kernel
  base_eq := by
    have h : curve.isOnCurve curve.Gx curve.Gy = true := by decide +kernel
    have e1 : fe curve.Gx = Bx := by decide +kernel
    have e2 : fe curve.Gy = By := by decide +kernel
    ext
    · rw [toPt_x h, e1]; rfl
    · rw [toPt_y h, e2]; rfl
  scalarBaseMult_eq k := rep_affine (rep_smul _ rep_base)
  N_pos := by decide +kernel
  N_base := by
    have := ord_smul_B
    simpa [curve] using this

/-! ### Point encoding -/

/-- RFC 8032 encoding: 32 little-endian bytes of y, the parity of x in the top bit. -/
def encode (g : Point) : Bytes := leFixed 32 (g.y.val + (if g.x.val % 2 = 1 then 2 ^ 255 else 0))

theorem rep_toBytes {e : Ext} {g : Point} (h : Rep e g) : e.toBytes = encode g := by
  have := rep_affine h
  simp only [Ext.affine, coords, Prod.mk.injEq, Nat.cast_inj] at this
  obtain ⟨hx, hy⟩ := this
  have l1 := ZMod.val_lt g.x
  have l2 := ZMod.val_lt g.y
  simp only [Ext.toBytes, encode, feIsNegative, decide_eq_true_eq, hx, hy]
  rw [Nat.mod_eq_of_lt l1, Nat.mod_eq_of_lt l2]

theorem leNat_set : ∀ (l : Bytes) (i : Nat) (b : UInt8), i < l.length →
    leNat (l.set i b) + 256 ^ i * (l.getD i 0).toNat = leNat l + 256 ^ i * b.toNat
  | [], i, b, h => by simp at h
  | a :: t, 0, b, _ => by simp [leNat]; omega
  | a :: t, i + 1, b, h => by
    have := leNat_set t i b (by simpa using h)
    simp only [List.set_cons_succ, leNat, List.getD_cons_succ, pow_succ]
    rw [show 256 ^ i * 256 * (t.getD i 0).toNat = 256 * (256 ^ i * (t.getD i 0).toNat) by ring,
      show 256 ^ i * 256 * b.toNat = 256 * (256 ^ i * b.toNat) by ring]
    omega

theorem u8_or : ∀ b : UInt8, (b ||| 0x80).toNat = b.toNat % 128 + 128 := by
  have : ∀ n, n < 256 → (UInt8.ofNat n ||| 0x80).toNat = n % 128 + 128 := by decide +kernel
  intro b
  have h := this b.toNat b.toNat_lt
  simpa using h

theorem u8_and : ∀ b : UInt8, (b &&& 0x7f).toNat = b.toNat % 128 := by
  have : ∀ n, n < 256 → (UInt8.ofNat n &&& 0x7f).toNat = n % 128 := by decide +kernel
  intro b
  have h := this b.toNat b.toNat_lt
  simpa using h

theorem leNat_split31 : ∀ (l : Bytes), l.length = 32 → leNat l = leNat (l.take 31) + 256 ^ 31 * (l.getD 31 0).toNat := by
  have gen : ∀ (k : Nat) (l : Bytes), l.length = k + 1 → leNat l = leNat (l.take k) + 256 ^ k * (l.getD k 0).toNat := by
    intro k
    induction k with
    | zero =>
      intro l h
      match l, h with
      | [a], _ => simp [leNat]
    | succ k ih =>
      intro l h
      match l, h with
      | a :: t, h =>
        have := ih t (by simpa using h)
        simp only [List.take_succ_cons, leNat, List.getD_cons_succ, pow_succ]
        rw [this]; ring
  intro l h
  exact gen 31 l h

theorem leNat_ecPointToEncodedBytes (x y : Int) :
    leNat (ecPointToEncodedBytes x y) = fe y + (if feIsNegative (fe x) then 2 ^ 255 else 0) := by
  unfold ecPointToEncodedBytes
  simp only
  rw [show feFromBytes (bigIntToEncodedBytes (some x)) = fe x from rfl]
  have hl : (bigIntToEncodedBytes (some y)).length = 32 := bigIntToEncodedBytes_length _
  unfold fe feFromBytes
  generalize bigIntToEncodedBytes (some y) = s at *
  have h1 := leNat_split31 s hl
  have h2 := leNat_lt (s.take 31)
  rw [List.length_take, hl, show min 31 32 = 31 from rfl] at h2
  have hb := (s.getD 31 0).toNat_lt
  have e : leNat s % 2 ^ 255 = leNat (s.take 31) + 256 ^ 31 * ((s.getD 31 0).toNat % 128) := by
    rw [h1]
    generalize (s.getD 31 0).toNat = b at *
    norm_num at h2 ⊢
    omega
  rw [e]
  split
  · have := leNat_set s 31 (s.getD 31 0 ||| 0x80) (by omega)
    rw [u8_or] at this
    rw [h1] at this
    generalize (s.getD 31 0).toNat = b at *
    norm_num at this h2 ⊢
    omega
  · have := leNat_set s 31 (s.getD 31 0 &&& 0x7f) (by omega)
    rw [u8_and] at this
    rw [h1] at this
    generalize (s.getD 31 0).toNat = b at *
    norm_num at this h2 ⊢
    omega

theorem ecPointToEncodedBytes_length (x y : Int) : (ecPointToEncodedBytes x y).length = 32 := by
  simp [ecPointToEncodedBytes, bigIntToEncodedBytes_length]

theorem coords_fe (g : Point) : fe (coords g).1 = g.x.val ∧ fe (coords g).2 = g.y.val := ⟨fe_val _, fe_val _⟩

theorem enc_mod (g : Point) :
    (g.y.val + (if g.x.val % 2 = 1 then 2 ^ 255 else 0)) % 256 ^ 32
      = g.y.val + (if g.x.val % 2 = 1 then 2 ^ 255 else 0) := by
  have l2 := ZMod.val_lt g.y
  have := P_lt
  apply Nat.mod_eq_of_lt
  have : (256 : Nat) ^ 32 = 2 * 2 ^ 255 := by norm_num
  split <;> omega

theorem ecPointToEncodedBytes_coords (g : Point) : ecPointToEncodedBytes (coords g).1 (coords g).2 = encode g := by
  apply leNat_inj
  · rw [ecPointToEncodedBytes_length]; simp [encode]
  · have l1 := ZMod.val_lt g.x
    have l2 := ZMod.val_lt g.y
    have := P_lt
    rw [leNat_ecPointToEncodedBytes, (coords_fe g).1, (coords_fe g).2]
    unfold encode feIsNegative
    rw [leNat_leFixed, Nat.mod_eq_of_lt l1, enc_mod]
    simp only [decide_eq_true_eq]

theorem encode_injective : Function.Injective encode := by
  intro g h e
  have l1 := ZMod.val_lt g.y
  have l2 := ZMod.val_lt h.y
  have hP := P_lt
  have p2 : (256 : Nat) ^ 32 = 2 * 2 ^ 255 := by norm_num
  have e2 := congrArg leNat e
  unfold encode at e2
  rw [leNat_leFixed, leNat_leFixed, enc_mod, enc_mod] at e2
  have hpar : (g.x.val % 2 = 1 ↔ h.x.val % 2 = 1) ∧ g.y.val = h.y.val := by
    split at e2 <;> split at e2 <;> constructor <;> omega
  have hy : g.y = h.y := ZMod.val_injective P hpar.2
  have g1 := g.on
  have h1 := h.on
  unfold OnC at g1 h1
  obtain ⟨i, hi⟩ := complete.sq
  have hne : 1 + d * h.y ^ 2 ≠ 0 := by
    intro h0
    by_cases hz : h.y = 0
    · rw [hz] at h0; simp at h0
    · apply complete.nsq (i / h.y)
      field_simp
      linear_combination hi - h0
  have hx2 : (g.x - h.x) * (g.x + h.x) = 0 := by
    have : (1 + d * h.y ^ 2) * ((g.x - h.x) * (g.x + h.x)) = 0 := by
      rw [hy] at g1
      linear_combination h1 - g1
    rcases mul_eq_zero.mp this with h' | h'
    · exact absurd h' hne
    · exact h'
  have hx : g.x = h.x := by
    rcases mul_eq_zero.mp hx2 with h' | h'
    · linear_combination h'
    · have hgx : g.x = -h.x := by linear_combination h'
      by_cases hz : h.x = 0
      · rw [hgx, hz, neg_zero]
      · exfalso
        have hv : g.x.val = P - h.x.val := by
          rw [hgx, ZMod.neg_val, if_neg hz]
        have hv0 : h.x.val ≠ 0 := by
          intro h0; exact hz ((ZMod.val_eq_zero _).mp h0)
        have hlt := ZMod.val_lt h.x
        have hodd : P % 2 = 1 := by decide +kernel
        have := hpar.1
        omega
  exact Pt.ext hx hy

end Tss.Ed
