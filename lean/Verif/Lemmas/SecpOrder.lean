import Verif.Lemmas.SecpGroup
import Verif.Lemmas.PrimesSecp
import Mathlib.GroupTheory.OrderOfElement
import Mathlib.GroupTheory.SpecificGroups.Cyclic
import Mathlib.GroupTheory.Perm.Cycle.Type
/-
The group of points of secp256k1 has prime order N and is generated by the base point, and the map (x, y) ↦ (βx, y) is
multiplication by λ.  No Hasse bound is needed: there are at most two points for each x, N divides the order and there is no
point of order two.
-/
namespace Tss.Secp
open Tss

/-! ### Point arithmetic on natural numbers, for kernel evaluation -/

/-- Subtraction modulo p. -/
def fsub (a b : Nat) : Nat := (a + (p - b % p)) % p

theorem fsub_cast (a b : Nat) : ((fsub a b : Nat) : ZMod p) = a - b := by
  unfold fsub
  have hp : 0 < p := p_prime.pos
  rw [ZMod.natCast_mod, Nat.cast_add, Nat.cast_sub (Nat.mod_lt _ hp).le, ZMod.natCast_mod, ZMod.natCast_self]
  ring

theorem mul_cast (a b : Nat) : ((a * b % p : Nat) : ZMod p) = a * b := by
  rw [ZMod.natCast_mod, Nat.cast_mul]

/-- Jacobian coordinates on natural numbers. -/
structure NJ where
  x : Nat
  y : Nat
  z : Nat
deriving DecidableEq

/-- The point a triple stands for. -/
def NJ.Rep (q : NJ) (P : E.Point) : Prop := JP (q.x : ZMod p) (q.y : ZMod p) (q.z : ZMod p) P

/-- Doubling. -/
def NJ.dbl (q : NJ) : NJ :=
  let yy := q.y * q.y % p
  let xyy := q.x * yy % p
  let a := 3 * (q.x * q.x % p) % p
  let x3 := fsub (a * a % p) (8 * xyy)
  ⟨x3, fsub (a * (fsub (4 * xyy) x3) % p) (8 * (yy * yy % p)), 2 * (q.y * q.z % p) % p⟩

theorem NJ.dbl_rep {q : NJ} {P : E.Point} (h : q.Rep P) : q.dbl.Rep (P + P) := by
  obtain ⟨hz, X, Y, hXY, ex, ey, rfl⟩ := h
  have hy := y_ne_zero hXY
  unfold NJ.Rep NJ.dbl
  simp only [fsub_cast, mul_cast, Nat.cast_mul, Nat.cast_ofNat]
  have c3 : ((3 * (q.x * q.x % p) % p : Nat) : ZMod p) = 3 * (q.x * q.x) := by
    rw [mul_cast, mul_cast]; norm_num
  have c2 : ((2 * (q.y * q.z % p) % p : Nat) : ZMod p) = 2 * (q.y * q.z) := by
    rw [mul_cast, mul_cast]; norm_num
  simp only [ex, ey]
  refine jp_double hXY ?_ ?_ ?_
  · exact mul_ne_zero two_ne (mul_ne_zero (mul_ne_zero hy (pow_ne_zero 3 hz)) hz)
  · ring
  · ring

/-- Addition of points with different x. -/
def NJ.add (q r : NJ) : NJ :=
  let zz1 := q.z * q.z % p
  let zz2 := r.z * r.z % p
  let u1 := q.x * zz2 % p
  let h := fsub (r.x * zz1 % p) u1
  let s1 := q.y * (zz2 * r.z % p) % p
  let d := fsub (r.y * (zz1 * q.z % p) % p) s1
  let hh := h * h % p
  let hhh := hh * h % p
  let v := u1 * hh % p
  let x3 := fsub (d * d % p) (hhh + 2 * v)
  ⟨x3, fsub (d * fsub v x3 % p) (s1 * hhh), h * (q.z * r.z % p) % p⟩

theorem NJ.add_rep {q r : NJ} {P Q : E.Point} (h1 : q.Rep P) (h2 : r.Rep Q) (hz : (q.add r).z ≠ 0) : (q.add r).Rep (P + Q) := by
  obtain ⟨hz1, X1, Y1, hXY1, ex1, ey1, rfl⟩ := h1
  obtain ⟨hz2, X2, Y2, hXY2, ex2, ey2, rfl⟩ := h2
  have hz' : ((q.add r).z : ZMod p) ≠ 0 := by
    intro h
    rw [ZMod.natCast_eq_zero_iff] at h
    have : (q.add r).z < p := Nat.mod_lt _ p_prime.pos
    exact hz (Nat.eq_zero_of_dvd_of_lt h this)
  have hx : X1 ≠ X2 := by
    rintro rfl
    apply hz'
    unfold NJ.add
    simp only [fsub_cast, mul_cast, ex1, ex2]
    ring
  unfold NJ.Rep
  revert hz'
  unfold NJ.add
  simp only [fsub_cast, mul_cast, Nat.cast_mul, Nat.cast_ofNat, Nat.cast_add, ex1, ex2, ey1, ey2]
  intro hz'
  refine jp_add hXY1 hXY2 hx hz' ?_ ?_
  · ring
  · ring

/-- Whether two triples stand for the same point. -/
def NJ.same (q r : NJ) : Bool :=
  let zz1 := q.z * q.z % p
  let zz2 := r.z * r.z % p
  q.z % p != 0 && q.x * zz2 % p == r.x * zz1 % p && q.y * (zz2 * r.z % p) % p == r.y * (zz1 * q.z % p) % p

theorem NJ.same_rep {q r : NJ} {P : E.Point} (h : r.Rep P) (hs : q.same r = true) : q.Rep P := by
  unfold NJ.same at hs
  simp only [Bool.and_eq_true, bne_iff_ne, beq_iff_eq, ne_eq] at hs
  obtain ⟨⟨hz, hx⟩, hy⟩ := hs
  have hz' : (q.z : ZMod p) ≠ 0 := by
    intro e; rw [ZMod.natCast_eq_zero_iff] at e; exact hz (Nat.mod_eq_zero_of_dvd e)
  have hx' := congrArg (Nat.cast : Nat → ZMod p) hx
  have hy' := congrArg (Nat.cast : Nat → ZMod p) hy
  simp only [mul_cast] at hx' hy'
  obtain ⟨hr, X, Y, hXY, ex, ey, rfl⟩ := h
  refine ⟨hz', X, Y, hXY, ?_, ?_, rfl⟩
  · apply mul_right_cancel₀ (pow_ne_zero 2 hr)
    rw [pow_two, hx', ex]; ring
  · apply mul_right_cancel₀ (pow_ne_zero 3 hr)
    have : (r.z : ZMod p) ^ 3 = r.z * r.z * r.z := by ring
    rw [this, hy', ey]; ring

/-- Left to right double and add; `none` if an addition was exceptional. -/
def NJ.mulBits (g : NJ) : List Bool → NJ → Option NJ
  | [], q => some q
  | b :: t, q =>
    let d := q.dbl
    if b then (let s := d.add g; if s.z = 0 then none else mulBits g t s) else mulBits g t d

/-- The number with the given bits after k. -/
def bitsNat : Nat → List Bool → Nat
  | k, [] => k
  | k, b :: t => bitsNat (2 * k + b.toNat) t

theorem NJ.mulBits_rep {g : NJ} {P : E.Point} (hg : g.Rep P) : ∀ (l : List Bool) {q r : NJ} {k : Nat}, q.Rep (k • P) →
    g.mulBits l q = some r → r.Rep (bitsNat k l • P)
  | [], q, r, k, h, e => by cases e; exact h
  | b :: t, q, r, k, h, e => by
    unfold NJ.mulBits at e
    simp only at e
    have hd := NJ.dbl_rep h
    rw [← add_nsmul, ← two_mul] at hd
    cases b
    · rw [if_neg (by simp)] at e
      exact NJ.mulBits_rep hg t (k := 2 * k) hd e
    · rw [if_pos rfl] at e
      by_cases hz : (q.dbl.add g).z = 0
      · rw [if_pos hz] at e; cases e
      · rw [if_neg hz] at e
        have hs := NJ.add_rep hd hg hz
        rw [← succ_nsmul] at hs
        exact NJ.mulBits_rep hg t (k := 2 * k + 1) hs e

/-- The bits of n, k of them, most significant first. -/
def bitsOf (n : Nat) : Nat → List Bool
  | 0 => []
  | k + 1 => n.testBit k :: bitsOf n k

/-! ### The base point and its order -/

/-- x of the base point. -/
def gx : Nat := 0x79BE667EF9DCBBAC55A06295CE870B07029BFCDB2DCE28D959F2815B16F81798
/-- y of the base point. -/
def gy : Nat := 0x483ADA7726A3C4655DA4FBFC0E1108A8FD17B448A68554199C47D08FFB10D4B8
/-- The order. -/
def ord : Nat := 0xFFFFFFFFFFFFFFFFFFFFFFFFFFFFFFFEBAAEDCE6AF48A03BBFD25E8CD0364141
/-- A cube root of one modulo p. -/
def betaN : Nat := 0x7AE96A2B657C07106E64479EAC3434E99CF0497512F58995C1396C28719501EE
/-- A cube root of one modulo the order. -/
def lam : Nat := 0x5363AD4CC05C30E0A5261C028812645A122E22EA20816678DF02967C1B23BD72

theorem ord_prime : Nat.Prime ord := Tss.PrimesSecp.secp_n_prime

theorem g_on : ((gy : Nat) : ZMod p) ^ 2 = ((gx : Nat) : ZMod p) ^ 3 + 7 := by
  have : ((gy ^ 2 : Nat) : ZMod p) = ((gx ^ 3 + 7 : Nat) : ZMod p) := by
    rw [ZMod.natCast_eq_natCast_iff]; show _ % _ = _ % _; decide +kernel
  push_cast at this
  exact this

/-- The base point. -/
def G : E.Point := pt (gx : ZMod p) (gy : ZMod p) g_on

/-- The base point as a triple. -/
def nG : NJ := ⟨gx, gy, 1⟩

theorem nG_rep : nG.Rep G := by
  refine ⟨?_, _, _, g_on, ?_, ?_, rfl⟩
  · simp [nG]
  · simp [nG]
  · simp [nG]

theorem G_ne_zero : G ≠ 0 := pt_ne_zero _

theorem mul_check {k n : Nat} {r : NJ} (hk : bitsNat 1 (bitsOf n k) = n) (h : ((nG.mulBits (bitsOf n k) nG).map fun q => r.same q) = some true) :
    r.Rep (n • G) := by
  cases e : nG.mulBits (bitsOf n k) nG with
  | none => rw [e] at h; cases h
  | some q =>
    rw [e] at h
    have hq := NJ.mulBits_rep nG_rep (bitsOf n k) (k := 1) (by rw [one_nsmul]; exact nG_rep) e
    rw [hk] at hq
    exact NJ.same_rep hq (by simpa using h)

theorem pred_G : (⟨gx, p - gy, 1⟩ : NJ).Rep ((ord - 1) • G) :=
  mul_check (k := 255) (by decide +kernel) (by decide +kernel)

theorem jp_one {x y : ZMod p} {P : E.Point} (h : JP x y 1 P) : ∃ h, P = pt x y h := by
  obtain ⟨-, X, Y, hXY, ex, ey, rfl⟩ := h
  have e1 : x = X := by rw [ex]; ring
  have e2 : y = Y := by rw [ey]; ring
  subst e1 e2
  exact ⟨hXY, rfl⟩

theorem ord_smul_G : ord • G = 0 := by
  have e : ord = (ord - 1) + 1 := by decide +kernel
  rw [e, succ_nsmul]
  have h := pred_G
  unfold NJ.Rep at h
  simp only [Nat.cast_one] at h
  obtain ⟨h', e'⟩ := jp_one h
  rw [e']
  refine pt_add_neg _ _ rfl ?_
  intro h0
  have : ((p - gy : Nat) : ZMod p) = ((gy : Nat) : ZMod p) := h0
  rw [ZMod.natCast_eq_natCast_iff] at this
  revert this
  show ¬ (_ % _ = _ % _)
  decide +kernel

theorem addOrderOf_G : addOrderOf G = ord := by
  have : Fact (Nat.Prime ord) := ⟨ord_prime⟩
  exact addOrderOf_eq_prime ord_smul_G G_ne_zero

/-! ### The order of the group -/

theorem val_parity {y : ZMod p} (hy : y ≠ 0) : y.val % 2 ≠ (-y).val % 2 := by
  have : NeZero y := ⟨hy⟩
  rw [ZMod.neg_val, if_neg hy]
  have h1 := ZMod.val_lt y
  have h2 : p % 2 = 1 := by decide +kernel
  omega

/-- The x-coordinate and the parity of y determine a point. -/
def xParity : E.Point → Option (ZMod p × Fin 2)
  | .zero => none
  | .some x y _ => some (x, ⟨y.val % 2, Nat.mod_lt _ (by decide)⟩)

theorem same_x {x y y' : ZMod p} (h : y ^ 2 = x ^ 3 + 7) (h' : y' ^ 2 = x ^ 3 + 7) (hp : y.val % 2 = y'.val % 2) : y = y' := by
  by_contra hn
  have : (y - y') * (y + y') = 0 := by linear_combination h - h'
  rcases mul_eq_zero.1 this with e | e
  · exact hn (sub_eq_zero.1 e)
  · have : y' = -y := by linear_combination e
    subst this
    exact val_parity (y_ne_zero h) hp

theorem xParity_inj : Function.Injective xParity := by
  intro P Q e
  rcases point_cases P with rfl | ⟨x, y, h, rfl⟩ <;> rcases point_cases Q with rfl | ⟨x', y', h', rfl⟩
  · rfl
  · exact absurd (show (none : Option (ZMod p × Fin 2)) = some _ from e) (by simp)
  · exact absurd (show some _ = (none : Option (ZMod p × Fin 2)) from e) (by simp)
  · simp only [xParity, pt, Option.some.injEq, Prod.mk.injEq, Fin.mk.injEq] at e
    obtain ⟨rfl, hp⟩ := e
    exact pt_congr rfl (same_x h h' hp)

instance : Finite E.Point := Finite.of_injective _ xParity_inj

theorem card_le : Nat.card E.Point ≤ 2 * p + 1 := by
  have := Nat.card_le_card_of_injective _ xParity_inj
  rw [Finite.card_option, Nat.card_prod, Nat.card_zmod, Nat.card_fin] at this
  omega

theorem no_two_torsion {P : E.Point} (h : 2 • P = 0) : P = 0 := by
  rcases point_cases P with rfl | ⟨x, y, hxy, rfl⟩
  · rfl
  · exfalso
    rw [two_nsmul] at h
    have := eq_neg_of_add_eq_zero_left h
    rw [pt_neg] at this
    have := (pt_inj this).2
    have : 2 * y = 0 := by linear_combination this
    exact mul_ne_zero two_ne (y_ne_zero hxy) this

theorem card_eq : Nat.card E.Point = ord := by
  have hl : ord ∣ Nat.card E.Point := by rw [← addOrderOf_G]; exact addOrderOf_dvd_natCard _
  obtain ⟨k, hk⟩ := hl
  have hpos : 0 < Nat.card E.Point := Nat.card_pos
  have hle := card_le
  have hb : 2 * p + 1 < ord * 3 := by decide +kernel
  have h3 : k < 3 := by
    by_contra hge
    have : ord * 3 ≤ ord * k := Nat.mul_le_mul_left _ (by omega)
    omega
  have h0 : k ≠ 0 := by rintro rfl; omega
  have h2 : k ≠ 2 := by
    rintro rfl
    have : Fact (Nat.Prime 2) := ⟨Nat.prime_two⟩
    obtain ⟨P, hP⟩ := exists_prime_addOrderOf_dvd_card' 2 (G := E.Point) (Dvd.intro_left ord hk.symm)
    have h1 : 2 • P = 0 := by rw [← hP]; exact addOrderOf_nsmul_eq_zero P
    have := no_two_torsion h1
    rw [this] at hP
    simp at hP
  have : k = 1 := by omega
  rw [hk, this, mul_one]

theorem ord_smul (P : E.Point) : ord • P = 0 := by
  rw [← card_eq]; exact card_nsmul_eq_zero'

theorem exists_mul (P : E.Point) : ∃ k : Nat, k < ord ∧ P = k • G := by
  have h : AddSubgroup.zmultiples G = ⊤ := by
    apply AddSubgroup.eq_top_of_card_eq
    rw [Nat.card_zmultiples, addOrderOf_G, card_eq]
  have hP : P ∈ AddSubgroup.zmultiples G := by rw [h]; trivial
  obtain ⟨m, rfl⟩ := AddSubgroup.mem_zmultiples_iff.mp hP
  have ho : (0 : Int) < ord := by exact_mod_cast ord_prime.pos
  refine ⟨(m % ord).toNat, ?_, ?_⟩
  · have := Int.emod_lt_of_pos m ho
    omega
  · have h1 : ((m % ord).toNat : Int) = m % ord := Int.toNat_of_nonneg (Int.emod_nonneg _ (by omega))
    rw [← natCast_zsmul, h1]
    conv_lhs => rw [← Int.emod_add_mul_ediv m ord]
    rw [add_zsmul, mul_comm, mul_zsmul', natCast_zsmul, ord_smul, add_zero]

theorem zsmul_mod (P : E.Point) {a b : Int} (h : (ord : Int) ∣ a - b) : a • P = b • P := by
  obtain ⟨c, hc⟩ := h
  have : a = b + c * ord := by linarith
  rw [this, add_zsmul, mul_zsmul', natCast_zsmul, ord_smul, add_zero]

/-! ### The endomorphism -/

theorem beta_cube : ((betaN : Nat) : ZMod p) ^ 3 = 1 := by
  have : ((betaN ^ 3 : Nat) : ZMod p) = ((1 : Nat) : ZMod p) := by
    rw [ZMod.natCast_eq_natCast_iff]; show _ % _ = _ % _; decide +kernel
  push_cast at this
  exact this

theorem beta_ne : ((betaN : Nat) : ZMod p) ≠ 0 := by
  intro h
  have := beta_cube
  rw [h] at this
  simp at this

theorem phi_on {x y : ZMod p} (h : y ^ 2 = x ^ 3 + 7) : y ^ 2 = ((betaN : Nat) * x : ZMod p) ^ 3 + 7 := by
  rw [mul_pow, beta_cube, one_mul]; exact h

/-- (x, y) ↦ (βx, y). -/
def phi : E.Point → E.Point
  | .zero => 0
  | .some x y h => pt ((betaN : Nat) * x) y (phi_on ((nonsing_iff x y).1 h).1)

theorem phi_pt {x y : ZMod p} (h : y ^ 2 = x ^ 3 + 7) : phi (pt x y h) = pt ((betaN : Nat) * x) y (phi_on h) := rfl

theorem phi_zero : phi 0 = 0 := rfl

theorem phi_add (P Q : E.Point) : phi (P + Q) = phi P + phi Q := by
  rcases point_cases P with rfl | ⟨x, y, h, rfl⟩
  · rw [phi_zero, zero_add, zero_add]
  rcases point_cases Q with rfl | ⟨x', y', h', rfl⟩
  · rw [phi_zero, add_zero, add_zero]
  have hb := beta_cube
  by_cases hx : x = x'
  · by_cases hy : y = y'
    · subst hx hy
      have hd : 2 * y ≠ 0 := mul_ne_zero two_ne (y_ne_zero h)
      obtain ⟨h3, e⟩ := pt_double (x3 := ((3 * x ^ 2) ^ 2 - 2 * x * (2 * y) ^ 2) / (2 * y) ^ 2)
        (y3 := (3 * x ^ 2 * (x - ((3 * x ^ 2) ^ 2 - 2 * x * (2 * y) ^ 2) / (2 * y) ^ 2) - y * (2 * y)) / (2 * y)) h
        (div_mul_cancel₀ _ (pow_ne_zero 2 hd)) (div_mul_cancel₀ _ hd)
      have f1 := div_mul_cancel₀ ((3 * x ^ 2) ^ 2 - 2 * x * (2 * y) ^ 2) (pow_ne_zero 2 hd)
      have f2 := div_mul_cancel₀ (3 * x ^ 2 * (x - ((3 * x ^ 2) ^ 2 - 2 * x * (2 * y) ^ 2) / (2 * y) ^ 2) - y * (2 * y)) hd
      rw [e, phi_pt, phi_pt]
      generalize ((3 * x ^ 2) ^ 2 - 2 * x * (2 * y) ^ 2) / (2 * y) ^ 2 = x3 at *
      generalize (3 * x ^ 2 * (x - x3) - y * (2 * y)) / (2 * y) = y3 at *
      obtain ⟨h4, e4⟩ := pt_double (x3 := (betaN : Nat) * x3) (y3 := y3) (phi_on h)
        (by linear_combination (betaN : ZMod p) * f1 - (betaN : ZMod p) * (3 * x ^ 2) ^ 2 * hb)
        (by linear_combination f2 - 3 * x ^ 2 * (x - x3) * hb)
      rw [e4]
    · rw [pt_add_neg h h' hx hy, phi_zero, phi_pt, phi_pt, pt_add_neg _ _ (by rw [hx]) hy]
  · have hd : x - x' ≠ 0 := sub_ne_zero.2 hx
    obtain ⟨h3, e⟩ := pt_add (x3 := ((y - y') ^ 2 - (x + x') * (x - x') ^ 2) / (x - x') ^ 2)
      (y3 := ((y - y') * (x - ((y - y') ^ 2 - (x + x') * (x - x') ^ 2) / (x - x') ^ 2) - y * (x - x')) / (x - x')) h h' hx
      (div_mul_cancel₀ _ (pow_ne_zero 2 hd)) (div_mul_cancel₀ _ hd)
    have f1 := div_mul_cancel₀ ((y - y') ^ 2 - (x + x') * (x - x') ^ 2) (pow_ne_zero 2 hd)
    have f2 := div_mul_cancel₀ ((y - y') * (x - ((y - y') ^ 2 - (x + x') * (x - x') ^ 2) / (x - x') ^ 2) - y * (x - x')) hd
    rw [e, phi_pt, phi_pt, phi_pt]
    generalize ((y - y') ^ 2 - (x + x') * (x - x') ^ 2) / (x - x') ^ 2 = x3 at *
    generalize ((y - y') * (x - x3) - y * (x - x')) / (x - x') = y3 at *
    obtain ⟨h4, e4⟩ := pt_add (x3 := (betaN : Nat) * x3) (y3 := y3) (phi_on h) (phi_on h')
      (fun h => hx (mul_left_cancel₀ beta_ne h))
      (by linear_combination f1 + (x3 + x + x') * (x - x') ^ 2 * hb)
      (by linear_combination (betaN : ZMod p) * f2)
    rw [e4]

theorem lam_G : (⟨betaN * gx, gy, 1⟩ : NJ).Rep (lam • G) :=
  mul_check (k := 254) (by decide +kernel) (by decide +kernel)

theorem phi_nsmul (k : Nat) (P : E.Point) : phi (k • P) = k • phi P := by
  induction k with
  | zero => rw [zero_nsmul, zero_nsmul, phi_zero]
  | succ k ih => rw [succ_nsmul, succ_nsmul, phi_add, ih]

theorem phi_G : phi G = lam • G := by
  have h := lam_G
  unfold NJ.Rep at h
  simp only [Nat.cast_one, Nat.cast_mul] at h
  obtain ⟨h', e'⟩ := jp_one h
  rw [e']
  rfl

/-- The endomorphism is multiplication by λ. -/
theorem phi_eq (P : E.Point) : phi P = lam • P := by
  obtain ⟨k, -, rfl⟩ := exists_mul P
  rw [phi_nsmul, phi_G, ← mul_nsmul, ← mul_nsmul, Nat.mul_comm]

end Tss.Secp
