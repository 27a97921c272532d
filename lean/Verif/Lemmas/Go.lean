import Verif.Model.Go
import Mathlib.Data.Int.GCD
import Mathlib.Data.Int.ModEq
import Mathlib.Tactic.Ring
import Mathlib.Tactic.Linarith
import Mathlib.Data.Nat.Log

namespace Tss

theorem natLEAux_leNat : ∀ (f n : Nat), n ≤ f → leNat (natLEAux f n) = n
  | 0, n, h => by
    have : n = 0 := by omega
    subst this; rfl
  | f + 1, n, h => by
    unfold natLEAux
    split
    · next h0 => subst h0; rfl
    · next h0 =>
      simp only [leNat]
      rw [natLEAux_leNat f (n / 256) (by omega)]
      rw [UInt8.toNat_ofNat']
      omega

theorem leNat_natLE (n : Nat) : leNat (natLE n) = n := natLEAux_leNat n n (le_refl _)

theorem beNat_append_single (b : Bytes) (x : UInt8) : beNat (b ++ [x]) = beNat b * 256 + x.toNat := by
  simp [beNat, List.foldl_append]

theorem beNat_reverse : ∀ b : Bytes, beNat b.reverse = leNat b
  | [] => rfl
  | x :: t => by
    rw [List.reverse_cons, beNat_append_single, beNat_reverse t, leNat]; ring

theorem leNat_reverse (b : Bytes) : leNat b.reverse = beNat b := by
  rw [← beNat_reverse, List.reverse_reverse]

@[simp] theorem beNat_natBE (n : Nat) : beNat (natBE n) = n := by
  rw [natBE, beNat_reverse, leNat_natLE]

theorem natBE_injective {a b : Nat} (h : natBE a = natBE b) : a = b := by
  have := congrArg beNat h
  simpa using this

@[simp] theorem beNat_intBytes (z : Int) : beNat (intBytes z) = z.natAbs := by
  simp [intBytes]

theorem intBytes_eq_iff (a b : Int) : intBytes a = intBytes b ↔ a.natAbs = b.natAbs := by
  constructor
  · intro h; exact natBE_injective h
  · intro h; simp [intBytes, h]

theorem intBytes_neg (a : Int) : intBytes (-a) = intBytes a := by simp [intBytes]

@[simp] theorem natBE_zero : natBE 0 = [] := rfl

theorem natBE_eq_nil {n : Nat} : natBE n = [] ↔ n = 0 := by
  constructor
  · intro h; have := congrArg beNat h; rw [beNat_natBE] at this; simpa [beNat] using this
  · rintro rfl; rfl

theorem intBytes_eq_nil {z : Int} : intBytes z = [] ↔ z = 0 := by
  rw [intBytes, natBE_eq_nil]; omega

theorem leNat_lt : ∀ b : Bytes, leNat b < 256 ^ b.length
  | [] => by simp [leNat]
  | x :: t => by
    have h1 := leNat_lt t
    have h2 := UInt8.toNat_lt x
    simp only [leNat, List.length_cons, pow_succ]
    omega

theorem beNat_lt (b : Bytes) : beNat b < 256 ^ b.length := by
  have := leNat_lt b.reverse
  rwa [leNat_reverse, List.length_reverse] at this

@[simp] theorem leFixed_length : ∀ (k n : Nat), (leFixed k n).length = k
  | 0, _ => rfl
  | k + 1, n => by simp [leFixed, leFixed_length k]

@[simp] theorem beFixed_length (k n : Nat) : (beFixed k n).length = k := by simp [beFixed]

theorem leNat_leFixed : ∀ (k n : Nat), leNat (leFixed k n) = n % 256 ^ k
  | 0, n => by simp [leFixed, leNat, Nat.mod_one]
  | k + 1, n => by
    simp only [leFixed, leNat]
    rw [leNat_leFixed k, UInt8.toNat_ofNat', Nat.pow_succ 256 k, Nat.mul_comm (256 ^ k) 256, Nat.mod_mul]

theorem beNat_beFixed (k n : Nat) : beNat (beFixed k n) = n % 256 ^ k := by
  rw [beFixed, beNat_reverse, leNat_leFixed]

@[simp] theorem le64_length (n : Nat) : (le64 n).length = 8 := by simp [le64]

theorem leNat_le64 (n : Nat) (h : n < 2 ^ 64) : leNat (le64 n) = n := by
  rw [le64, leNat_leFixed, Nat.mod_eq_of_lt]
  exact h

theorem le64_injective {a b : Nat} (ha : a < 2 ^ 64) (hb : b < 2 ^ 64) (h : le64 a = le64 b) : a = b := by
  have := congrArg leNat h
  rwa [leNat_le64 a ha, leNat_le64 b hb] at this

theorem leNat_inj : ∀ (a b : Bytes), a.length = b.length → leNat a = leNat b → a = b
  | [], [], _, _ => rfl
  | [], _ :: _, h, _ => by simp at h
  | _ :: _, [], h, _ => by simp at h
  | x :: s, y :: t, hl, h => by
    simp only [leNat] at h
    have hx := UInt8.toNat_lt x
    have hy := UInt8.toNat_lt y
    have e1 : x.toNat = y.toNat := by omega
    have e2 : leNat s = leNat t := by omega
    rw [leNat_inj s t (by simpa using hl) e2, UInt8.toNat_inj.mp e1]

theorem beNat_inj (a b : Bytes) (hl : a.length = b.length) (h : beNat a = beNat b) : a = b := by
  have := leNat_inj a.reverse b.reverse (by simpa using hl) (by rw [leNat_reverse, leNat_reverse, h])
  simpa using this

theorem leFixed_leNat (b : Bytes) : leFixed b.length (leNat b) = b := by
  apply leNat_inj
  · simp
  · rw [leNat_leFixed, Nat.mod_eq_of_lt (leNat_lt b)]

theorem beFixed_beNat (b : Bytes) : beFixed b.length (beNat b) = b := by
  apply beNat_inj
  · simp
  · rw [beNat_beFixed, Nat.mod_eq_of_lt (beNat_lt b)]

theorem beNat_zeros_append (k : Nat) (b : Bytes) : beNat (List.replicate k 0 ++ b) = beNat b := by
  have h0 : (0 : UInt8).toNat = 0 := rfl
  have : ∀ k, (List.replicate k (0 : UInt8)).foldl (fun a x => a * 256 + x.toNat) 0 = 0 := by
    intro k
    induction k with
    | zero => rfl
    | succ k ih => simp [List.replicate_succ, ih]
  simp [beNat, List.foldl_append, this]

/-- Stripping the leading zero bytes is what a trip through `big.Int` does. -/
def stripZeros : Bytes → Bytes
  | [] => []
  | x :: t => if x = 0 then stripZeros t else x :: t

theorem beNat_cons (x : UInt8) (t : Bytes) : beNat (x :: t) = x.toNat * 256 ^ t.length + beNat t := by
  have : ∀ (t : Bytes) (a : Nat), t.foldl (fun a x => a * 256 + x.toNat) a = a * 256 ^ t.length + beNat t := by
    intro t
    induction t with
    | nil => intro a; simp [beNat]
    | cons y t ih =>
      intro a
      simp only [List.foldl_cons, List.length_cons, beNat]
      rw [ih, ih (0 * 256 + y.toNat)]
      ring
  simp only [beNat, List.foldl_cons]
  rw [this]
  simp [beNat]

theorem natLEAux_congr : ∀ (f g n : Nat), n ≤ f → n ≤ g → natLEAux f n = natLEAux g n
  | 0, g, n, h, _ => by
    have : n = 0 := by omega
    subst this
    cases g <;> simp [natLEAux]
  | f + 1, 0, n, _, h => by
    have : n = 0 := by omega
    subst this
    simp [natLEAux]
  | f + 1, g + 1, n, h1, h2 => by
    unfold natLEAux
    split
    · rfl
    · rw [natLEAux_congr f g (n / 256) (by omega) (by omega)]

theorem natLE_step (n : Nat) (h : n ≠ 0) : natLE n = UInt8.ofNat n :: natLE (n / 256) := by
  unfold natLE
  cases n with
  | zero => omega
  | succ n =>
    conv_lhs => unfold natLEAux
    rw [if_neg (by omega), natLEAux_congr n ((n + 1) / 256) _ (by omega) (le_refl _)]

theorem natLE_leNat : ∀ b : Bytes, b ≠ [] → b.getLast? ≠ some 0 → natLE (leNat b) = b
  | [], h, _ => absurd rfl h
  | [x], _, h => by
    have hx : x ≠ 0 := by simpa using h
    have hx' : x.toNat ≠ 0 := fun e => hx (UInt8.toNat_inj.mp (by simpa using e))
    have hlt := UInt8.toNat_lt x
    simp only [leNat]
    rw [natLE_step _ (by omega)]
    have : (x.toNat + 256 * 0) / 256 = 0 := by omega
    rw [this]
    simp [natLE, natLEAux]
  | x :: y :: t, _, h => by
    have ih := natLE_leNat (y :: t) (by simp) (by simpa [List.getLast?_cons_cons] using h)
    have hpos : leNat (y :: t) ≠ 0 := by
      intro e
      rw [e] at ih
      simp [natLE, natLEAux] at ih
    have hlt := UInt8.toNat_lt x
    rw [leNat, natLE_step _ (by omega)]
    have e : (x.toNat + 256 * leNat (y :: t)) / 256 = leNat (y :: t) := by omega
    rw [e, ih]
    congr 1
    apply UInt8.toNat_inj.mp
    rw [UInt8.toNat_ofNat']
    omega

theorem natBE_beNat_of_head (b : Bytes) (h : b.head? ≠ some 0) : natBE (beNat b) = b := by
  by_cases hb : b = []
  · subst hb; rfl
  · rw [natBE, ← leNat_reverse, natLE_leNat _ (by simpa using hb) (by simpa using h), List.reverse_reverse]

theorem beNat_stripZeros : ∀ b : Bytes, beNat (stripZeros b) = beNat b
  | [] => rfl
  | x :: t => by
    unfold stripZeros
    split
    · next h => rw [beNat_stripZeros t, beNat_cons, h]; simp
    · rfl

theorem stripZeros_head : ∀ b : Bytes, (stripZeros b).head? ≠ some 0
  | [] => by simp [stripZeros]
  | x :: t => by
    unfold stripZeros
    split
    · exact stripZeros_head t
    · next h => simpa using h

theorem natBE_beNat (b : Bytes) : natBE (beNat b) = stripZeros b := by
  rw [← beNat_stripZeros, natBE_beNat_of_head _ (stripZeros_head b)]

theorem natLEAux_length : ∀ (f n k : Nat), n < 256 ^ k → (natLEAux f n).length ≤ k
  | 0, _, _, _ => by simp [natLEAux]
  | f + 1, n, k, h => by
    unfold natLEAux
    split
    · simp
    · next h0 =>
      cases k with
      | zero => simp at h; omega
      | succ k =>
        have := natLEAux_length f (n / 256) k (by
          rw [Nat.div_lt_iff_lt_mul (by omega)]; rwa [pow_succ] at h)
        simpa using this

theorem natBE_length_le (n k : Nat) (h : n < 256 ^ k) : (natBE n).length ≤ k := by
  rw [natBE, List.length_reverse]; exact natLEAux_length n n k h

theorem natBE_length_gt (n k : Nat) (h : 256 ^ k ≤ n) : k < (natBE n).length := by
  by_contra hc
  have h1 := beNat_lt (natBE n)
  rw [beNat_natBE] at h1
  have h2 : 256 ^ (natBE n).length ≤ 256 ^ k := Nat.pow_le_pow_right (by omega) (by omega)
  omega

theorem bezoutAux_spec : ∀ (f a b : Nat), b < f →
    (a : Int) * (bezoutAux f a b).1 + b * (bezoutAux f a b).2 = Nat.gcd a b
  | 0, _, _, h => by omega
  | f + 1, a, b, h => by
    unfold bezoutAux
    split
    · next hb => subst hb; simp
    · next hb =>
      have hlt := Nat.mod_lt a (Nat.pos_of_ne_zero hb)
      have ih := bezoutAux_spec f b (a % b) (by omega)
      have hg : Nat.gcd b (a % b) = Nat.gcd a b := by
        rw [Nat.gcd_comm b, ← Nat.gcd_rec, Nat.gcd_comm]
      rw [hg] at ih
      have hd : (a : Int) = b * (a / b : Nat) + (a % b : Nat) := by
        exact_mod_cast (Nat.div_add_mod a b).symm
      simp only
      rw [← ih]
      generalize (bezoutAux f b (a % b)).1 = x at *
      generalize (bezoutAux f b (a % b)).2 = y at *
      rw [hd]
      generalize ((a / b : Nat) : Int) = q at *
      generalize ((a % b : Nat) : Int) = r at *
      ring

theorem bezout_spec (a b : Nat) : (a : Int) * (bezout a b).1 + b * (bezout a b).2 = Nat.gcd a b :=
  bezoutAux_spec (b + 1) a b (by omega)

theorem modInverse_eq_none {g n : Int} : modInverse g n = none ↔ Int.gcd g n ≠ 1 := by
  unfold modInverse; split <;> simp_all

theorem modInverse_isSome {g n : Int} : (modInverse g n).isSome ↔ Int.gcd g n = 1 := by
  unfold modInverse; split <;> simp_all

theorem modInverse_spec {g n x : Int} (hn : n ≠ 0) (h : modInverse g n = some x) :
    0 ≤ x ∧ x < |n| ∧ g * x ≡ 1 [ZMOD n] := by
  unfold modInverse at h
  split at h
  · next hg =>
    simp only [Option.some.injEq] at h
    subst h
    refine ⟨Int.emod_nonneg _ hn, Int.emod_lt_abs _ hn, ?_⟩
    have hb := bezout_spec (g % n).toNat n.natAbs
    generalize (bezout (g % n).toNat n.natAbs).1 = x at *
    generalize (bezout (g % n).toNat n.natAbs).2 = y at *
    have hnn : 0 ≤ g % n := Int.emod_nonneg _ hn
    have hcast : ((g % n).toNat : Int) = g % n := Int.toNat_of_nonneg hnn
    have hgcd : Nat.gcd (g % n).toNat n.natAbs = 1 := by
      have : Int.gcd (g % n) n = 1 := by
        rw [← hg]; conv_rhs => rw [← Int.emod_add_mul_ediv g n, Int.gcd_add_mul_left_left]
      rw [Int.gcd] at this
      convert this using 2
      omega
    rw [hcast, hgcd] at hb
    have h1 : g * (x % n) ≡ g * x [ZMOD n] := (Int.mod_modEq x n).mul_left g
    have h2 : g * x ≡ (g % n) * x [ZMOD n] := ((Int.mod_modEq g n).symm).mul_right x
    have h3 : (g % n) * x ≡ 1 [ZMOD n] := by
      rw [Int.modEq_iff_dvd]
      refine Dvd.dvd.trans (Int.dvd_natAbs.mpr (dvd_refl n)) ⟨y, ?_⟩
      push_cast at hb ⊢
      linarith
    exact h1.trans (h2.trans h3)
  · simp at h

end Tss
