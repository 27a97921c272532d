import Mathlib.Algebra.Field.Basic
import Mathlib.Algebra.Group.Even
import Mathlib.Tactic.LinearCombination
import Mathlib.Tactic.FieldSimp
import Mathlib.Tactic.Ring

/-
The group law of a complete twisted Edwards curve `-x² + y² = 1 + d x² y²` over a field in which -1 is a
square and `d` is not.  Specification side of C67: nothing here models code.
-/
namespace Tss.Edw

variable {F : Type} [Field F]

/-- The curve equation. -/
def OnC (d x y : F) : Prop := -x ^ 2 + y ^ 2 = 1 + d * x ^ 2 * y ^ 2

/-- The hypotheses under which the addition law is complete. -/
structure Complete (d : F) : Prop where
  two : (2 : F) ≠ 0
  sq : ∃ i : F, i ^ 2 = -1
  nsq : ∀ r : F, r ^ 2 ≠ d

theorem eps_ne {d : F} (hc : Complete d) {x1 y1 x2 y2 : F} (h1 : OnC d x1 y1) (h2 : OnC d x2 y2) {s : F} (hs : s ^ 2 = 1) :
    d * x1 * x2 * y1 * y2 ≠ s := by
  intro he
  obtain ⟨i, hi⟩ := hc.sq
  unfold OnC at h1 h2
  have hs0 : s ≠ 0 := by rintro rfl; simp at hs
  have hne : d * x1 * x2 * y1 * y2 ≠ 0 := by rw [he]; exact hs0
  have hx1 : x1 ≠ 0 := by rintro rfl; simp at hne
  have hy1 : y1 ≠ 0 := by rintro rfl; simp at hne
  have hy2 : y2 ≠ 0 := by rintro rfl; simp at hne
  have key : d * x1 ^ 2 * y1 ^ 2 * (-x2 ^ 2 + y2 ^ 2) = -x1 ^ 2 + y1 ^ 2 := by
    have : (d * x1 * x2 * y1 * y2) ^ 2 = 1 := by rw [he, hs]
    linear_combination (d * x1 ^ 2 * y1 ^ 2) * h2 - h1 + this
  have kp : (i * x1 + s * y1) ^ 2 = d * (x1 * y1 * (i * x2 + y2)) ^ 2 := by
    linear_combination (x1 ^ 2 - d * x1 ^ 2 * y1 ^ 2 * x2 ^ 2) * hi + y1 ^ 2 * hs - key - 2 * i * x1 * y1 * he
  have km : (i * x1 - s * y1) ^ 2 = d * (x1 * y1 * (i * x2 - y2)) ^ 2 := by
    linear_combination (x1 ^ 2 - d * x1 ^ 2 * y1 ^ 2 * x2 ^ 2) * hi + y1 ^ 2 * hs - key + 2 * i * x1 * y1 * he
  have sq : ∀ a b : F, a ^ 2 = d * b ^ 2 → b = 0 := by
    intro a b h
    by_contra hb
    apply hc.nsq (a / b)
    field_simp
    linear_combination h
  have z1 := sq _ _ kp
  have z2 := sq _ _ km
  have w1 : i * x2 + y2 = 0 := by
    rcases mul_eq_zero.mp z1 with h | h
    · exact absurd h (mul_ne_zero hx1 hy1)
    · exact h
  have w2 : i * x2 - y2 = 0 := by
    rcases mul_eq_zero.mp z2 with h | h
    · exact absurd h (mul_ne_zero hx1 hy1)
    · exact h
  have : 2 * y2 = 0 := by linear_combination w1 - w2
  exact (mul_ne_zero hc.two hy2) this

/-- x-coordinate of the sum. -/
def addX (d x1 y1 x2 y2 : F) : F := (x1 * y2 + y1 * x2) / (1 + d * x1 * x2 * y1 * y2)
/-- y-coordinate of the sum. -/
def addY (d x1 y1 x2 y2 : F) : F := (y1 * y2 + x1 * x2) / (1 - d * x1 * x2 * y1 * y2)

theorem den_add {d : F} (hc : Complete d) {x1 y1 x2 y2 : F} (h1 : OnC d x1 y1) (h2 : OnC d x2 y2) :
    1 + d * x1 * x2 * y1 * y2 ≠ 0 := by
  intro h
  exact eps_ne hc h1 h2 (s := -1) (by ring) (by linear_combination h)

theorem den_sub {d : F} (hc : Complete d) {x1 y1 x2 y2 : F} (h1 : OnC d x1 y1) (h2 : OnC d x2 y2) :
    1 - d * x1 * x2 * y1 * y2 ≠ 0 := by
  intro h
  exact eps_ne hc h1 h2 (s := 1) (by ring) (by linear_combination -h)

theorem add_on {d : F} (hc : Complete d) {x1 y1 x2 y2 : F} (h1 : OnC d x1 y1) (h2 : OnC d x2 y2) :
    OnC d (addX d x1 y1 x2 y2) (addY d x1 y1 x2 y2) := by
  have hb := den_add hc h1 h2
  have he := den_sub hc h1 h2
  unfold OnC addX addY at *
  generalize hB : 1 + d * x1 * x2 * y1 * y2 = B at *
  generalize hE : 1 - d * x1 * x2 * y1 * y2 = E at *
  generalize hA : x1 * y2 + y1 * x2 = A at *
  generalize hC : y1 * y2 + x1 * x2 = C at *
  have : -A ^ 2 * E ^ 2 + C ^ 2 * B ^ 2 - B ^ 2 * E ^ 2 - d * A ^ 2 * C ^ 2 = 0 := by
    subst hA hB hC hE
    linear_combination
      (1*x1^2*y1^2*x2^4*y2^4*d^3 -1*x1^2*x2^4*y2^4*d^2 -1*x1^2*x2^4*y2^2*d +1*x1^2*x2^2*y2^4*d
      +1*y1^2*x2^4*y2^4*d^2 +1*y1^2*x2^4*y2^2*d -1*y1^2*x2^2*y2^4*d -1*x2^4*y2^4*d^2 -2*x2^4*y2^4*d
      -2*x2^4*y2^2 +1*x2^4 +2*x2^2*y2^4 -2*x2^2*y2^2*d -4*x2^2*y2^2 +1*y2^4) * h1 + (1*x1^4*x2^2*y2^2*d
      +2*x1^2*x2^2*y2^2*d +2*x1^2*x2^2*y2^2 -1*x1^2*x2^2 +1*x1^2*y2^2 +1*y1^4*x2^2*y2^2*d -2*y1^2*x2^2*y2^2*d
      -2*y1^2*x2^2*y2^2 +1*y1^2*x2^2 -1*y1^2*y2^2 +1*x2^2*y2^2*d +2*x2^2*y2^2 -1*x2^2 +1*y2^2 +1) * h2
  field_simp
  linear_combination this

/-- A point of the curve. -/
@[ext] structure Pt (d : F) where
  x : F
  y : F
  on : OnC d x y

theorem assoc_x {d x1 y1 x2 y2 x3 y3 : F} (h1 : OnC d x1 y1) (h2 : OnC d x2 y2) (h3 : OnC d x3 y3)
    {a b c e a' b' c' e' : F} (ha : a = x1 * y2 + y1 * x2) (hb : b = 1 + d * x1 * x2 * y1 * y2)
    (hc : c = y1 * y2 + x1 * x2) (he : e = 1 - d * x1 * x2 * y1 * y2) (ha' : a' = x2 * y3 + y2 * x3)
    (hb' : b' = 1 + d * x2 * x3 * y2 * y3) (hc' : c' = y2 * y3 + x2 * x3) (he' : e' = 1 - d * x2 * x3 * y2 * y3) :
    (a * e * y3 + c * b * x3) * (b' * e' + d * x1 * y1 * a' * c') =
      (x1 * c' * b' + y1 * a' * e') * (b * e + d * a * c * x3 * y3) := by
  subst ha hb hc he ha' hb' hc' he'
  unfold OnC at h1 h2 h3
  linear_combination
    (-1*x1*x2^4*y2^3*x3^2*y3*d^2 -1*x1*x2^4*y2*x3^2*y3*d -1*x1*x2^3*y2^4*x3*y3^2*d^2 -1*x1*x2^3*y2^2*x3^3*d
    -1*x1*x2^3*y2^2*x3*d +1*x1*x2^2*y2^3*y3^3*d -1*x1*x2^2*y2^3*y3*d +1*x1*x2*y2^4*x3*y3^2*d
    +1*y1*x2^4*y2^3*x3*y3^2*d^2 +1*y1*x2^4*y2*x3*y3^2*d +1*y1*x2^3*y2^4*x3^2*y3*d^2 +1*y1*x2^3*y2^2*y3^3*d
    -1*y1*x2^3*y2^2*y3*d -1*y1*x2^2*y2^3*x3^3*d -1*y1*x2^2*y2^3*x3*d -1*y1*x2*y2^4*x3^2*y3*d) * h1 +
    (1*x1^3*x2^2*y2*x3^2*y3*d +1*x1^3*x2*y2^2*x3*y3^2*d +1*x1^3*x2*x3^3*y3^2*d +1*x1^3*x2*x3^3
    -1*x1^3*x2*x3*y3^2 +1*x1^3*x2*x3 +1*x1^3*y2*x3^2*y3^3*d +1*x1^3*y2*x3^2*y3 -1*x1^3*y2*y3^3 +1*x1^3*y2*y3
    +1*x1^2*y1*x2^2*y2*x3^3*y3^2*d^2 -1*x1^2*y1*x2^2*y2*x3*y3^2*d -1*x1^2*y1*x2*y2^2*x3^2*y3^3*d^2
    -1*x1^2*y1*x2*y2^2*x3^2*y3*d +1*x1^2*y1*x2*x3^2*y3^3*d +1*x1^2*y1*x2*x3^2*y3 -1*x1^2*y1*x2*y3^3
    +1*x1^2*y1*x2*y3 +1*x1^2*y1*y2*x3^3*y3^2*d +1*x1^2*y1*y2*x3^3 -1*x1^2*y1*y2*x3*y3^2 +1*x1^2*y1*y2*x3
    -1*x1*y1^2*x2^2*y2*x3^2*y3^3*d^2 -1*x1*y1^2*x2^2*y2*x3^2*y3*d +1*x1*y1^2*x2*y2^2*x3^3*y3^2*d^2
    -1*x1*y1^2*x2*y2^2*x3*y3^2*d -1*x1*y1^2*x2*x3^3*y3^2*d -1*x1*y1^2*x2*x3^3 +1*x1*y1^2*x2*x3*y3^2
    -1*x1*y1^2*x2*x3 -1*x1*y1^2*y2*x3^2*y3^3*d -1*x1*y1^2*y2*x3^2*y3 +1*x1*y1^2*y2*y3^3 -1*x1*y1^2*y2*y3
    +1*x1*x2^2*y2*x3^2*y3*d +1*x1*x2*y2^2*x3*y3^2*d +1*x1*x2*x3^3*y3^2*d +1*x1*x2*x3^3 -1*x1*x2*x3*y3^2
    +1*x1*x2*x3 +1*x1*y2*x3^2*y3^3*d +1*x1*y2*x3^2*y3 -1*x1*y2*y3^3 +1*x1*y2*y3 +1*y1^3*x2^2*y2*x3*y3^2*d
    +1*y1^3*x2*y2^2*x3^2*y3*d -1*y1^3*x2*x3^2*y3^3*d -1*y1^3*x2*x3^2*y3 +1*y1^3*x2*y3^3 -1*y1^3*x2*y3
    -1*y1^3*y2*x3^3*y3^2*d -1*y1^3*y2*x3^3 +1*y1^3*y2*x3*y3^2 -1*y1^3*y2*x3 -1*y1*x2^2*y2*x3*y3^2*d
    -1*y1*x2*y2^2*x3^2*y3*d +1*y1*x2*x3^2*y3^3*d +1*y1*x2*x3^2*y3 -1*y1*x2*y3^3 +1*y1*x2*y3
    +1*y1*y2*x3^3*y3^2*d +1*y1*y2*x3^3 -1*y1*y2*x3*y3^2 +1*y1*y2*x3) * h2 + (-1*x1^3*x2^3*x3
    -1*x1^3*x2^2*y2*y3 +1*x1^3*x2*y2^2*x3 -1*x1^3*x2*x3 +1*x1^3*y2^3*y3 -1*x1^3*y2*y3 -1*x1^2*y1*x2^3*y3
    -1*x1^2*y1*x2^2*y2*x3*d -1*x1^2*y1*x2^2*y2*x3 +1*x1^2*y1*x2*y2^2*y3*d +1*x1^2*y1*x2*y2^2*y3
    -1*x1^2*y1*x2*y3 +1*x1^2*y1*y2^3*x3 -1*x1^2*y1*y2*x3 +1*x1*y1^2*x2^3*x3 +1*x1*y1^2*x2^2*y2*y3*d
    +1*x1*y1^2*x2^2*y2*y3 -1*x1*y1^2*x2*y2^2*x3*d -1*x1*y1^2*x2*y2^2*x3 +1*x1*y1^2*x2*x3 -1*x1*y1^2*y2^3*y3
    +1*x1*y1^2*y2*y3 -1*x1*x2^3*x3 -1*x1*x2^2*y2*y3 +1*x1*x2*y2^2*x3 -1*x1*x2*x3 +1*x1*y2^3*y3 -1*x1*y2*y3
    +1*y1^3*x2^3*y3 +1*y1^3*x2^2*y2*x3 -1*y1^3*x2*y2^2*y3 +1*y1^3*x2*y3 -1*y1^3*y2^3*x3 +1*y1^3*y2*x3
    -1*y1*x2^3*y3 -1*y1*x2^2*y2*x3 +1*y1*x2*y2^2*y3 -1*y1*x2*y3 +1*y1*y2^3*x3 -1*y1*y2*x3) * h3

theorem assoc_y {d x1 y1 x2 y2 x3 y3 : F} (h1 : OnC d x1 y1) (h2 : OnC d x2 y2) (h3 : OnC d x3 y3)
    {a b c e a' b' c' e' : F} (ha : a = x1 * y2 + y1 * x2) (hb : b = 1 + d * x1 * x2 * y1 * y2)
    (hc : c = y1 * y2 + x1 * x2) (he : e = 1 - d * x1 * x2 * y1 * y2) (ha' : a' = x2 * y3 + y2 * x3)
    (hb' : b' = 1 + d * x2 * x3 * y2 * y3) (hc' : c' = y2 * y3 + x2 * x3) (he' : e' = 1 - d * x2 * x3 * y2 * y3) :
    (c * y3 * b + a * x3 * e) * (b' * e' - d * x1 * y1 * a' * c') =
      (y1 * c' * b' + x1 * a' * e') * (b * e - d * a * c * x3 * y3) := by
  subst ha hb hc he ha' hb' hc' he'
  unfold OnC at h1 h2 h3
  linear_combination
    (1*x1*x2^4*y2^3*x3*y3^2*d^2 +1*x1*x2^4*y2*x3*y3^2*d +1*x1*x2^3*y2^4*x3^2*y3*d^2 +1*x1*x2^3*y2^2*y3^3*d
    -1*x1*x2^3*y2^2*y3*d -1*x1*x2^2*y2^3*x3^3*d -1*x1*x2^2*y2^3*x3*d -1*x1*x2*y2^4*x3^2*y3*d
    -1*y1*x2^4*y2^3*x3^2*y3*d^2 -1*y1*x2^4*y2*x3^2*y3*d -1*y1*x2^3*y2^4*x3*y3^2*d^2 -1*y1*x2^3*y2^2*x3^3*d
    -1*y1*x2^3*y2^2*x3*d +1*y1*x2^2*y2^3*y3^3*d -1*y1*x2^2*y2^3*y3*d +1*y1*x2*y2^4*x3*y3^2*d) * h1 +
    (-1*x1^3*x2^2*y2*x3*y3^2*d -1*x1^3*x2*y2^2*x3^2*y3*d +1*x1^3*x2*x3^2*y3^3*d +1*x1^3*x2*x3^2*y3
    -1*x1^3*x2*y3^3 +1*x1^3*x2*y3 +1*x1^3*y2*x3^3*y3^2*d +1*x1^3*y2*x3^3 -1*x1^3*y2*x3*y3^2 +1*x1^3*y2*x3
    +1*x1^2*y1*x2^2*y2*x3^2*y3^3*d^2 +1*x1^2*y1*x2^2*y2*x3^2*y3*d -1*x1^2*y1*x2*y2^2*x3^3*y3^2*d^2
    +1*x1^2*y1*x2*y2^2*x3*y3^2*d +1*x1^2*y1*x2*x3^3*y3^2*d +1*x1^2*y1*x2*x3^3 -1*x1^2*y1*x2*x3*y3^2
    +1*x1^2*y1*x2*x3 +1*x1^2*y1*y2*x3^2*y3^3*d +1*x1^2*y1*y2*x3^2*y3 -1*x1^2*y1*y2*y3^3 +1*x1^2*y1*y2*y3
    -1*x1*y1^2*x2^2*y2*x3^3*y3^2*d^2 +1*x1*y1^2*x2^2*y2*x3*y3^2*d +1*x1*y1^2*x2*y2^2*x3^2*y3^3*d^2
    +1*x1*y1^2*x2*y2^2*x3^2*y3*d -1*x1*y1^2*x2*x3^2*y3^3*d -1*x1*y1^2*x2*x3^2*y3 +1*x1*y1^2*x2*y3^3
    -1*x1*y1^2*x2*y3 -1*x1*y1^2*y2*x3^3*y3^2*d -1*x1*y1^2*y2*x3^3 +1*x1*y1^2*y2*x3*y3^2 -1*x1*y1^2*y2*x3
    -1*x1*x2^2*y2*x3*y3^2*d -1*x1*x2*y2^2*x3^2*y3*d +1*x1*x2*x3^2*y3^3*d +1*x1*x2*x3^2*y3 -1*x1*x2*y3^3
    +1*x1*x2*y3 +1*x1*y2*x3^3*y3^2*d +1*x1*y2*x3^3 -1*x1*y2*x3*y3^2 +1*x1*y2*x3 -1*y1^3*x2^2*y2*x3^2*y3*d
    -1*y1^3*x2*y2^2*x3*y3^2*d -1*y1^3*x2*x3^3*y3^2*d -1*y1^3*x2*x3^3 +1*y1^3*x2*x3*y3^2 -1*y1^3*x2*x3
    -1*y1^3*y2*x3^2*y3^3*d -1*y1^3*y2*x3^2*y3 +1*y1^3*y2*y3^3 -1*y1^3*y2*y3 +1*y1*x2^2*y2*x3^2*y3*d
    +1*y1*x2*y2^2*x3*y3^2*d +1*y1*x2*x3^3*y3^2*d +1*y1*x2*x3^3 -1*y1*x2*x3*y3^2 +1*y1*x2*x3
    +1*y1*y2*x3^2*y3^3*d +1*y1*y2*x3^2*y3 -1*y1*y2*y3^3 +1*y1*y2*y3) * h2 + (-1*x1^3*x2^3*y3
    -1*x1^3*x2^2*y2*x3 +1*x1^3*x2*y2^2*y3 -1*x1^3*x2*y3 +1*x1^3*y2^3*x3 -1*x1^3*y2*x3 -1*x1^2*y1*x2^3*x3
    -1*x1^2*y1*x2^2*y2*y3*d -1*x1^2*y1*x2^2*y2*y3 +1*x1^2*y1*x2*y2^2*x3*d +1*x1^2*y1*x2*y2^2*x3
    -1*x1^2*y1*x2*x3 +1*x1^2*y1*y2^3*y3 -1*x1^2*y1*y2*y3 +1*x1*y1^2*x2^3*y3 +1*x1*y1^2*x2^2*y2*x3*d
    +1*x1*y1^2*x2^2*y2*x3 -1*x1*y1^2*x2*y2^2*y3*d -1*x1*y1^2*x2*y2^2*y3 +1*x1*y1^2*x2*y3 -1*x1*y1^2*y2^3*x3
    +1*x1*y1^2*y2*x3 -1*x1*x2^3*y3 -1*x1*x2^2*y2*x3 +1*x1*x2*y2^2*y3 -1*x1*x2*y3 +1*x1*y2^3*x3 -1*x1*y2*x3
    +1*y1^3*x2^3*x3 +1*y1^3*x2^2*y2*y3 -1*y1^3*x2*y2^2*x3 +1*y1^3*x2*x3 -1*y1^3*y2^3*y3 +1*y1^3*y2*y3
    -1*y1*x2^3*x3 -1*y1*x2^2*y2*y3 +1*y1*x2*y2^2*x3 -1*y1*x2*x3 +1*y1*y2^3*y3 -1*y1*y2*y3) * h3

namespace Pt
variable {d : F}

/-- Addition. -/
def add (hc : Complete d) (P Q : Pt d) : Pt d :=
  ⟨addX d P.x P.y Q.x Q.y, addY d P.x P.y Q.x Q.y, add_on hc P.on Q.on⟩

/-- Neutral element (0, 1). -/
def zero : Pt d := ⟨0, 1, by unfold OnC; ring⟩

/-- Negation (-x, y). -/
def neg (P : Pt d) : Pt d := ⟨-P.x, P.y, by have := P.on; unfold OnC at *; linear_combination this⟩

theorem add_comm' (hc : Complete d) (P Q : Pt d) : add hc P Q = add hc Q P := by
  ext <;> simp only [add, addX, addY] <;> ring_nf

theorem zero_add' (hc : Complete d) (P : Pt d) : add hc zero P = P := by
  ext <;> simp [add, addX, addY, zero]

theorem neg_add' (hc : Complete d) (P : Pt d) : add hc (neg P) P = zero := by
  have h1 := P.on
  have h2 := (neg P).on
  have := den_sub hc h2 h1
  ext
  · simp only [add, addX, neg, zero]
    rw [div_eq_zero_iff]; left; ring
  · simp only [add, addY, neg, zero] at *
    rw [div_eq_one_iff_eq this]
    unfold OnC at h1
    linear_combination h1

theorem add_assoc' (hc : Complete d) (P Q R : Pt d) : add hc (add hc P Q) R = add hc P (add hc Q R) := by
  have b0 := den_add hc P.on Q.on
  have e0 := den_sub hc P.on Q.on
  have b1 := den_add hc Q.on R.on
  have e1 := den_sub hc Q.on R.on
  have l1 := den_add hc (add hc P Q).on R.on
  have l2 := den_sub hc (add hc P Q).on R.on
  have r1 := den_add hc P.on (add hc Q R).on
  have r2 := den_sub hc P.on (add hc Q R).on
  have kx := assoc_x P.on Q.on R.on rfl rfl rfl rfl rfl rfl rfl rfl
  have ky := assoc_y P.on Q.on R.on rfl rfl rfl rfl rfl rfl rfl rfl
  simp only [add, addX, addY] at l1 l2 r1 r2
  ext
  · simp only [add, addX, addY]
    rw [div_eq_div_iff l1 r1]
    generalize 1 + d * P.x * Q.x * P.y * Q.y = B at *
    generalize 1 - d * P.x * Q.x * P.y * Q.y = E at *
    generalize 1 + d * Q.x * R.x * Q.y * R.y = B' at *
    generalize 1 - d * Q.x * R.x * Q.y * R.y = E' at *
    field_simp
    linear_combination kx
  · simp only [add, addX, addY]
    rw [div_eq_div_iff l2 r2]
    generalize 1 + d * P.x * Q.x * P.y * Q.y = B at *
    generalize 1 - d * P.x * Q.x * P.y * Q.y = E at *
    generalize 1 + d * Q.x * R.x * Q.y * R.y = B' at *
    generalize 1 - d * Q.x * R.x * Q.y * R.y = E' at *
    field_simp
    linear_combination ky

instance [hc : Fact (Complete d)] : Add (Pt d) := ⟨add hc.out⟩
instance : Zero (Pt d) := ⟨zero⟩
instance : Neg (Pt d) := ⟨neg⟩

/-- The points form a commutative group. -/
instance instGroup [hc : Fact (Complete d)] : AddCommGroup (Pt d) where
  add_assoc := add_assoc' hc.out
  zero_add := zero_add' hc.out
  add_zero P := (add_comm' hc.out P zero).trans (zero_add' hc.out P)
  add_comm := add_comm' hc.out
  neg_add_cancel := neg_add' hc.out
  nsmul := nsmulRec
  zsmul := zsmulRec

theorem add_x [hc : Fact (Complete d)] (P Q : Pt d) : (P + Q).x = addX d P.x P.y Q.x Q.y := rfl
theorem add_y [hc : Fact (Complete d)] (P Q : Pt d) : (P + Q).y = addY d P.x P.y Q.x Q.y := rfl
@[simp] theorem zero_x : (0 : Pt d).x = 0 := rfl
@[simp] theorem zero_y : (0 : Pt d).y = 1 := rfl
@[simp] theorem neg_x [hc : Fact (Complete d)] (P : Pt d) : (-P).x = -P.x := rfl
@[simp] theorem neg_y [hc : Fact (Complete d)] (P : Pt d) : (-P).y = P.y := rfl

end Pt
end Tss.Edw
