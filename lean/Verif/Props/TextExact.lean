import Verif.Model.Text
import Verif.Lemmas.Go
import Mathlib.Tactic.Ring
import Mathlib.Data.List.Forall2
/-!
C128: the texts the API takes, exactly: decimal and hexadecimal integers (party keys, chain codes, responses), hexadecimal
byte strings (messages, root keys) and base64 (wire messages, saved keys).  The specification writes the alphabets down and
reads a text as a numeral in base 10, 16 or 64.
-/
namespace Tss.Text
open Tss

namespace spec

/-- Digits of numerals, lower case. -/
def lower : Bytes := ascii "0123456789abcdefghijklmnopqrstuvwxyz"
/-- Digits of numerals, upper case. -/
def upper : Bytes := ascii "0123456789ABCDEFGHIJKLMNOPQRSTUVWXYZ"
/-- RFC 4648 table 1. -/
def base64 : Bytes := ascii "ABCDEFGHIJKLMNOPQRSTUVWXYZabcdefghijklmnopqrstuvwxyz0123456789+/"

/-- `c` is the digit `v` of base `base`. -/
def IsDigit (base : Nat) (c : UInt8) (v : Nat) : Prop := v < base ∧ (lower[v]? = some c ∨ upper[v]? = some c)

/-- The number with these digits, most significant first. -/
def value (base : Nat) (ds : List Nat) : Nat := ds.foldl (fun a d => a * base + d) 0

/-- `s` is a numeral without sign of `n`. -/
def Numeral (base : Nat) (s : Bytes) (n : Nat) : Prop := s ≠ [] ∧ ∃ ds, List.Forall₂ (IsDigit base) s ds ∧ value base ds = n

/-- `s` is a numeral of `z`, with an optional sign. -/
def Integer (base : Nat) (s : Bytes) (z : Int) : Prop :=
  ∃ n, (Numeral base s n ∧ z = n) ∨ ∃ t, Numeral base t n ∧ (s = 43 :: t ∧ z = n ∨ s = 45 :: t ∧ z = -n)

/-- `s` is the bytes `b` in hexadecimal. -/
def Hex (s b : Bytes) : Prop := s.length = 2 * b.length ∧ ∃ ds, List.Forall₂ (IsDigit 16) s ds ∧ value 16 ds = beNat b

/-- `s` is a base64 text of `b`: without the line ends it has a length divisible by 4 and consists of characters of the
alphabet and at most two final `=`; `b` is the whole bytes of the bits of the characters, the bits left over do not matter. -/
def Base64 (s b : Bytes) : Prop :=
  ∃ (vs : List Nat) (pad : Nat), (∀ v ∈ vs, v < 64) ∧ pad ≤ 2 ∧ (vs.length + pad) % 4 = 0 ∧
    s.filter (fun c => c ≠ 13 ∧ c ≠ 10) = vs.map (fun v => base64.getD v 0) ++ List.replicate pad 61 ∧
    b.length = vs.length * 6 / 8 ∧ beNat b = value 64 vs / 2 ^ (vs.length * 6 % 8)

end spec

/-! ### digits -/

theorem digitVal_iff (c : UInt8) (v : Nat) : digitVal c = some v ↔ (spec.lower[v]? = some c ∨ spec.upper[v]? = some c) := by
  have key : ∀ n < 256, ∀ w < 36, (digitVal (UInt8.ofNat n) = some w ↔
      (spec.lower[w]? = some (UInt8.ofNat n) ∨ spec.upper[w]? = some (UInt8.ofNat n))) := by decide +kernel
  have hr : ∀ n < 256, (digitVal (UInt8.ofNat n)).getD 0 < 36 := by decide +kernel
  have hc : UInt8.ofNat c.toNat = c := UInt8.ofNat_toNat
  have hl : c.toNat < 256 := c.toNat_lt
  by_cases hv : v < 36
  · have := key c.toNat hl v hv
    rwa [hc] at this
  · have l1 : spec.lower.length = 36 := by decide
    have l2 : spec.upper.length = 36 := by decide
    constructor
    · intro h
      have := hr c.toNat hl
      rw [hc, h] at this
      simp only [Option.getD_some] at this
      omega
    · rintro (h | h)
      · obtain ⟨h', -⟩ := List.getElem?_eq_some_iff.mp h; omega
      · obtain ⟨h', -⟩ := List.getElem?_eq_some_iff.mp h; omega

theorem value_from (base acc : Nat) (ds : List Nat) :
    ds.foldl (fun a d => a * base + d) acc = acc * base ^ ds.length + spec.value base ds := by
  induction ds generalizing acc with
  | nil => simp [spec.value]
  | cons d t ih =>
    simp only [List.foldl_cons, List.length_cons, spec.value]
    rw [ih, ih (0 * base + d), spec.value]
    ring

theorem value_cons (base d : Nat) (t : List Nat) : spec.value base (d :: t) = d * base ^ t.length + spec.value base t := by
  conv_lhs => unfold spec.value
  rw [List.foldl_cons, value_from]; simp

theorem digitsVal_iff (base acc : Nat) (s : Bytes) (n : Nat) : digitsVal base acc s = some n ↔
    ∃ ds, List.Forall₂ (spec.IsDigit base) s ds ∧ ds.foldl (fun a d => a * base + d) acc = n := by
  induction s generalizing acc with
  | nil => simp [digitsVal]
  | cons c t ih =>
    unfold digitsVal
    constructor
    · intro h
      cases hd : digitVal c with
      | none => simp [hd] at h
      | some d =>
        simp only [hd] at h
        split at h
        · next hb =>
          obtain ⟨ds, h1, h2⟩ := (ih _).mp h
          exact ⟨d :: ds, .cons ⟨hb, (digitVal_iff c d).mp hd⟩ h1, h2⟩
        · cases h
    · rintro ⟨ds, h1, h2⟩
      cases h1 with
      | cons hd ht =>
        rename_i d ds
        simp only [(digitVal_iff c d).mpr hd.2, hd.1, if_true]
        exact (ih _).mpr ⟨ds, ht, h2⟩

theorem parseNat_iff (base : Nat) (s : Bytes) (n : Nat) : parseNat base s = some n ↔ spec.Numeral base s n := by
  cases s with
  | nil => simp [parseNat, spec.Numeral]
  | cons c t =>
    unfold parseNat spec.Numeral spec.value
    rw [digitsVal_iff]
    simp

/-- C128: integers: a text is accepted for `z` exactly if it is a numeral of `z` in that base with at most one sign: no
space, prefix, separator or point, digits of both cases. -/
theorem C128_integer (base : Nat) (s : Bytes) (z : Int) : parseBig base s = some z ↔ spec.Integer base s z := by
  have nosign : ∀ n t, spec.Numeral base (43 :: t) n → False := by
    rintro n t ⟨-, ds, h, -⟩
    cases h with
    | cons hd _ =>
      have := (digitVal_iff _ _).mpr hd.2
      exact absurd this (by simp [digitVal])
  have nosign' : ∀ n t, spec.Numeral base (45 :: t) n → False := by
    rintro n t ⟨-, ds, h, -⟩
    cases h with
    | cons hd _ =>
      have := (digitVal_iff _ _).mpr hd.2
      exact absurd this (by simp [digitVal])
  unfold spec.Integer parseBig
  cases s with
  | nil => simp [spec.Numeral]
  | cons c t =>
    simp only
    by_cases h43 : c = 43
    · subst h43
      rw [if_pos rfl, Option.map_eq_some_iff]
      constructor
      · rintro ⟨n, h1, h2⟩
        exact ⟨n, Or.inr ⟨t, (parseNat_iff _ _ _).mp h1, Or.inl ⟨rfl, h2.symm⟩⟩⟩
      · rintro ⟨n, ⟨h, -⟩ | ⟨t', h, ⟨h1, h2⟩ | ⟨h1, h2⟩⟩⟩
        · exact (nosign _ _ h).elim
        · cases h1; exact ⟨n, (parseNat_iff _ _ _).mpr h, h2.symm⟩
        · cases h1
    · rw [if_neg h43]
      by_cases h45 : c = 45
      · subst h45
        rw [if_pos rfl, Option.map_eq_some_iff]
        constructor
        · rintro ⟨n, h1, h2⟩
          exact ⟨n, Or.inr ⟨t, (parseNat_iff _ _ _).mp h1, Or.inr ⟨rfl, h2.symm⟩⟩⟩
        · rintro ⟨n, ⟨h, -⟩ | ⟨t', h, ⟨h1, h2⟩ | ⟨h1, h2⟩⟩⟩
          · exact (nosign' _ _ h).elim
          · cases h1
          · cases h1; exact ⟨n, (parseNat_iff _ _ _).mpr h, h2.symm⟩
      · rw [if_neg h45, Option.map_eq_some_iff]
        constructor
        · rintro ⟨n, h1, h2⟩
          exact ⟨n, Or.inl ⟨(parseNat_iff _ _ _).mp h1, h2.symm⟩⟩
        · rintro ⟨n, ⟨h, h2⟩ | ⟨t', h, ⟨h1, h2⟩ | ⟨h1, h2⟩⟩⟩
          · exact ⟨n, (parseNat_iff _ _ _).mpr h, h2.symm⟩
          · cases h1; exact absurd rfl h43
          · cases h1; exact absurd rfl h45

/-! ### hexadecimal -/

theorem hexVal_iff (c : UInt8) (v : Nat) : hexVal c = some v ↔ spec.IsDigit 16 c v := by
  unfold hexVal spec.IsDigit
  rw [← digitVal_iff]
  cases digitVal c with
  | none => simp
  | some d =>
    simp only
    split
    · constructor
      · intro h; cases h; exact ⟨by assumption, rfl⟩
      · rintro ⟨-, h⟩; exact h
    · constructor
      · intro h; cases h
      · rintro ⟨h, h'⟩; cases h'; omega

theorem value_lt {base : Nat} (ds : List Nat) (h : ∀ d ∈ ds, d < base) : spec.value base ds < base ^ ds.length := by
  induction ds with
  | nil => simp [spec.value]
  | cons d t ih =>
    rw [value_cons, List.length_cons]
    have h1 := ih fun x hx => h x (by simp [hx])
    have h2 : d + 1 ≤ base := h d (by simp)
    calc d * base ^ t.length + spec.value base t < d * base ^ t.length + base ^ t.length := by omega
      _ = (d + 1) * base ^ t.length := by ring
      _ ≤ base * base ^ t.length := Nat.mul_le_mul_right _ h2
      _ = base ^ (t.length + 1) := by ring

theorem split_eq {a b r s m : Nat} (hr : r < m) (hs : s < m) (h : a * m + r = b * m + s) : a = b ∧ r = s := by
  have hm : 0 < m := by omega
  have h1 : (a * m + r) / m = a := by rw [mul_comm, Nat.mul_add_div hm, Nat.div_eq_of_lt hr, add_zero]
  have h2 : (b * m + s) / m = b := by rw [mul_comm, Nat.mul_add_div hm, Nat.div_eq_of_lt hs, add_zero]
  have : a = b := by rw [← h1, h, h2]
  subst this
  exact ⟨rfl, by omega⟩

/-- C128: byte strings in hexadecimal: the text has two digits, of either case, for each byte. -/
theorem C128_hex : ∀ s b : Bytes, hexDecode s = some b ↔ spec.Hex s b
  | [], b => by
    simp only [hexDecode, spec.Hex, Option.some.injEq]
    constructor
    · rintro rfl; exact ⟨rfl, [], .nil, rfl⟩
    · rintro ⟨h, -⟩
      cases b with
      | nil => rfl
      | cons x t => simp only [List.length_cons, List.length_nil] at h; omega
  | [x], b => by
    simp only [hexDecode, spec.Hex]
    constructor
    · intro h; cases h
    · rintro ⟨h, -⟩; simp at h; omega
  | x :: y :: t, b => by
    unfold hexDecode
    constructor
    · intro h
      cases hx : hexVal x with
      | none => simp [hx] at h
      | some v =>
        cases hy : hexVal y with
        | none => simp [hx, hy] at h
        | some w =>
          cases ht : hexDecode t with
          | none => simp [hx, hy, ht] at h
          | some r =>
            simp only [hx, hy, ht, Option.some.injEq] at h
            subst h
            obtain ⟨h1, ds, h2, h3⟩ := (C128_hex t r).mp ht
            have hv := (hexVal_iff _ _).mp hx
            have hw := (hexVal_iff _ _).mp hy
            refine ⟨by simp only [List.length_cons, h1]; omega, v :: w :: ds, .cons hv (.cons hw h2), ?_⟩
            have hl : ds.length = 2 * r.length := by rw [← h2.length_eq, h1]
            have hb : (UInt8.ofNat (v * 16 + w)).toNat = v * 16 + w := by
              rw [UInt8.toNat_ofNat']; have := hv.1; have := hw.1; apply Nat.mod_eq_of_lt; omega
            rw [value_cons, value_cons, h3, beNat_cons, hb, List.length_cons, hl, pow_succ, pow_mul]
            norm_num; ring
    · rintro ⟨h1, ds, h2, h3⟩
      cases b with
      | nil => simp at h1
      | cons c r =>
        cases h2 with
        | cons hv h2' =>
          cases h2' with
          | cons hw h2 =>
            rename_i v w ds
            have hlt : t.length = 2 * r.length := by simp at h1; omega
            have hl : ds.length = 2 * r.length := by rw [← h2.length_eq, hlt]
            rw [value_cons, value_cons, beNat_cons, List.length_cons, hl, pow_succ, pow_mul] at h3
            have hval : spec.value 16 ds < 256 ^ r.length := by
              have := value_lt (base := 16) ds (by
                intro d hd
                obtain ⟨k, hk, rfl⟩ := List.mem_iff_getElem.mp hd
                exact ((List.forall₂_iff_get.mp h2).2 k (by rw [hlt, ← hl]; exact hk) hk).1)
              rw [hl, pow_mul] at this
              norm_num at this ⊢; exact this
            have h3' : (v * 16 + w) * 256 ^ r.length + spec.value 16 ds = c.toNat * 256 ^ r.length + beNat r := by
              rw [← h3]; norm_num; ring
            obtain ⟨e1, e2⟩ := split_eq hval (beNat_lt r) h3'
            simp only [(hexVal_iff _ _).mpr hv, (hexVal_iff _ _).mpr hw, (C128_hex t r).mpr ⟨hlt, ds, h2, e2⟩]
            rw [e1, UInt8.ofNat_toNat]

/-! ### base64 -/

theorem b64Val_iff (c : UInt8) (v : Nat) : b64Val c = some v ↔ v < 64 ∧ c = spec.base64.getD v 0 := by
  have key : ∀ n < 256, ∀ w < 64, (b64Val (UInt8.ofNat n) = some w ↔ UInt8.ofNat n = spec.base64.getD w 0) := by
    decide +kernel
  have hr : ∀ n < 256, (b64Val (UInt8.ofNat n)).getD 0 < 64 := by decide +kernel
  have hc : UInt8.ofNat c.toNat = c := UInt8.ofNat_toNat
  have hl : c.toNat < 256 := c.toNat_lt
  by_cases hv : v < 64
  · have := key c.toNat hl v hv
    rw [hc] at this
    rw [this]; simp [hv]
  · constructor
    · intro h
      have := hr c.toNat hl
      rw [hc, h] at this
      simp only [Option.getD_some] at this
      omega
    · rintro ⟨h, -⟩; omega

theorem base64_ne (v : Nat) (h : v < 64) : spec.base64.getD v 0 ≠ 61 := by
  revert v; decide +kernel

theorem byteOf {n : Nat} (h : n < 256) : (UInt8.ofNat n).toNat = n := by
  rw [UInt8.toNat_ofNat']; exact Nat.mod_eq_of_lt h

/-! #### four characters are three bytes -/

theorem shift_block (l N V : Nat) (hV : V < 64 ^ l) :
    (N * 64 ^ l + V) / 2 ^ (l * 6 % 8) = N * 256 ^ (l * 6 / 8) + V / 2 ^ (l * 6 % 8) ∧
      V / 2 ^ (l * 6 % 8) < 256 ^ (l * 6 / 8) := by
  have h : 64 ^ l = 2 ^ (l * 6 % 8) * 256 ^ (l * 6 / 8) := by
    rw [show (64 : Nat) = 2 ^ 6 by norm_num, show (256 : Nat) = 2 ^ 8 by norm_num, ← pow_mul, ← pow_mul, ← pow_add]
    congr 1; omega
  have hp : 0 < 2 ^ (l * 6 % 8) := Nat.pow_pos (by norm_num)
  generalize 256 ^ (l * 6 / 8) = Q at h ⊢
  generalize 2 ^ (l * 6 % 8) = S at h hp ⊢
  rw [h] at hV ⊢
  refine ⟨?_, Nat.div_lt_of_lt_mul hV⟩
  rw [show N * (S * Q) + V = S * (N * Q) + V by ring, Nat.mul_add_div hp]

theorem value_four (x y z w : Nat) (vs : List Nat) : spec.value 64 (x :: y :: z :: w :: vs) =
    (x * 262144 + y * 4096 + z * 64 + w) * 64 ^ vs.length + spec.value 64 vs := by
  simp only [value_cons, List.length_cons, pow_succ]; ring

theorem beNat_three (a b c : UInt8) (t : Bytes) : beNat (a :: b :: c :: t) =
    (a.toNat * 65536 + b.toNat * 256 + c.toNat) * 256 ^ t.length + beNat t := by
  simp only [beNat_cons, List.length_cons, pow_succ]; ring

theorem shift_four (l : Nat) : (l + 4) * 6 % 8 = l * 6 % 8 ∧ (l + 4) * 6 / 8 = l * 6 / 8 + 3 := by omega

/-- the meaning of a text without line ends -/
def Quads (s b : Bytes) : Prop :=
  ∃ (vs : List Nat) (pad : Nat), (∀ v ∈ vs, v < 64) ∧ pad ≤ 2 ∧ (vs.length + pad) % 4 = 0 ∧
    s = vs.map (fun v => spec.base64.getD v 0) ++ List.replicate pad 61 ∧
    b.length = vs.length * 6 / 8 ∧ beNat b = spec.value 64 vs / 2 ^ (vs.length * 6 % 8)

theorem quads_of_sound : ∀ s b : Bytes, b64Quads s = some b → Quads s b
  | [], b, h => by
    simp only [b64Quads, Option.some.injEq] at h
    subst h
    exact ⟨[], 0, by simp, by omega, rfl, rfl, rfl, rfl⟩
  | [_], b, h => by simp [b64Quads] at h
  | [_, _], b, h => by simp [b64Quads] at h
  | [_, _, _], b, h => by simp [b64Quads] at h
  | a :: b :: c :: d :: t, out, h => by
    unfold b64Quads at h
    by_cases hc : c = 61
    · rw [if_pos hc] at h
      by_cases hd : d = 61 ∧ t = []
      · rw [if_pos hd] at h
        obtain ⟨hd, rfl⟩ := hd
        subst hc hd
        cases hx : b64Val a with
        | none => simp [hx] at h
        | some x =>
          cases hy : b64Val b with
          | none => simp [hx, hy] at h
          | some y =>
            simp only [hx, hy, Option.some.injEq] at h
            subst h
            obtain ⟨x1, rfl⟩ := (b64Val_iff _ _).mp hx
            obtain ⟨y1, rfl⟩ := (b64Val_iff _ _).mp hy
            refine ⟨[x, y], 2, by simp [x1, y1], by omega, by simp, rfl, by simp, ?_⟩
            have : (UInt8.ofNat (x * 4 + y / 16)).toNat = x * 4 + y / 16 := byteOf (by omega)
            simp only [spec.value, beNat, List.foldl_cons, List.foldl_nil, this]
            norm_num; omega
      · rw [if_neg hd] at h; cases h
    · rw [if_neg hc] at h
      by_cases hd : d = 61
      · rw [if_pos hd] at h
        by_cases ht : t = []
        · rw [if_pos ht] at h
          subst ht hd
          cases hx : b64Val a with
          | none => simp [hx] at h
          | some x =>
            cases hy : b64Val b with
            | none => simp [hx, hy] at h
            | some y =>
              cases hz : b64Val c with
              | none => simp [hx, hy, hz] at h
              | some z =>
                simp only [hx, hy, hz, Option.some.injEq] at h
                subst h
                obtain ⟨x1, rfl⟩ := (b64Val_iff _ _).mp hx
                obtain ⟨y1, rfl⟩ := (b64Val_iff _ _).mp hy
                obtain ⟨z1, rfl⟩ := (b64Val_iff _ _).mp hz
                refine ⟨[x, y, z], 1, by simp [x1, y1, z1], by omega, by simp, rfl, by simp, ?_⟩
                have e1 : (UInt8.ofNat (x * 4 + y / 16)).toNat = x * 4 + y / 16 := byteOf (by omega)
                have e2 : (UInt8.ofNat (y % 16 * 16 + z / 4)).toNat = y % 16 * 16 + z / 4 := byteOf (by omega)
                simp only [spec.value, beNat, List.foldl_cons, List.foldl_nil, e1, e2]
                norm_num; omega
        · rw [if_neg ht] at h; cases h
      · rw [if_neg hd] at h
        cases hx : b64Val a with
        | none => simp [hx] at h
        | some x =>
          cases hy : b64Val b with
          | none => simp [hx, hy] at h
          | some y =>
            cases hz : b64Val c with
            | none => simp [hx, hy, hz] at h
            | some z =>
              cases hw : b64Val d with
              | none => simp [hx, hy, hz, hw] at h
              | some w =>
                cases ht : b64Quads t with
                | none => simp [hx, hy, hz, hw, ht] at h
                | some r =>
                  simp only [hx, hy, hz, hw, ht, Option.some.injEq] at h
                  subst h
                  obtain ⟨vs, pad, g1, g2, g3, g4, g5, g6⟩ := quads_of_sound t r ht
                  obtain ⟨x1, rfl⟩ := (b64Val_iff _ _).mp hx
                  obtain ⟨y1, rfl⟩ := (b64Val_iff _ _).mp hy
                  obtain ⟨z1, rfl⟩ := (b64Val_iff _ _).mp hz
                  obtain ⟨w1, rfl⟩ := (b64Val_iff _ _).mp hw
                  have e1 : (UInt8.ofNat (x * 4 + y / 16)).toNat = x * 4 + y / 16 := byteOf (by omega)
                  have e2 : (UInt8.ofNat (y % 16 * 16 + z / 4)).toNat = y % 16 * 16 + z / 4 := byteOf (by omega)
                  have e3 : (UInt8.ofNat (z % 4 * 64 + w)).toNat = z % 4 * 64 + w := byteOf (by omega)
                  obtain ⟨f1, f2⟩ := shift_four vs.length
                  refine ⟨x :: y :: z :: w :: vs, pad, ?_, g2, ?_, ?_, ?_, ?_⟩
                  · intro v hv
                    simp only [List.mem_cons] at hv
                    rcases hv with rfl | rfl | rfl | rfl | hv
                    · exact x1
                    · exact y1
                    · exact z1
                    · exact w1
                    · exact g1 v hv
                  · simp only [List.length_cons]; omega
                  · rw [g4]; rfl
                  · simp only [List.length_cons] at f2 ⊢; omega
                  · have hN : x * 262144 + y * 4096 + z * 64 + w =
                        (x * 4 + y / 16) * 65536 + (y % 16 * 16 + z / 4) * 256 + (z % 4 * 64 + w) := by omega
                    rw [beNat_three, value_four, e1, e2, e3]
                    simp only [List.length_cons]
                    rw [show vs.length + 1 + 1 + 1 + 1 = vs.length + 4 by rfl, f1,
                      (shift_block _ _ _ (value_lt vs g1)).1, g6, g5, hN]

theorem quads_of_complete : ∀ (vs : List Nat) (pad : Nat) (b : Bytes), (∀ v ∈ vs, v < 64) → pad ≤ 2 →
    (vs.length + pad) % 4 = 0 → b.length = vs.length * 6 / 8 → beNat b = spec.value 64 vs / 2 ^ (vs.length * 6 % 8) →
    b64Quads (vs.map (fun v => spec.base64.getD v 0) ++ List.replicate pad 61) = some b
  | [], pad, b, _, h2, h3, h4, _ => by
    simp only [List.length_nil] at h3 h4
    obtain rfl : pad = 0 := by omega
    obtain rfl : b = [] := List.eq_nil_of_length_eq_zero (by omega)
    rfl
  | [_], pad, b, _, h2, h3, _, _ => by simp only [List.length_cons, List.length_nil] at h3; omega
  | [x, y], pad, b, h1, h2, h3, h4, h5 => by
    simp only [List.length_cons, List.length_nil] at h3 h4 h5
    obtain rfl : pad = 2 := by omega
    obtain ⟨c, rfl⟩ := List.length_eq_one_iff.mp (show b.length = 1 by omega)
    have x1 := h1 x (by simp)
    have y1 := h1 y (by simp)
    have hx := (b64Val_iff _ x).mpr ⟨x1, rfl⟩
    have hy := (b64Val_iff _ y).mpr ⟨y1, rfl⟩
    simp only [List.map_cons, List.map_nil, List.replicate, List.cons_append, List.nil_append, b64Quads, if_true, and_self,
      hx, hy]
    simp only [spec.value, beNat, List.foldl_cons, List.foldl_nil] at h5
    norm_num at h5
    rw [show x * 4 + y / 16 = c.toNat by omega, UInt8.ofNat_toNat]
  | [x, y, z], pad, b, h1, h2, h3, h4, h5 => by
    simp only [List.length_cons, List.length_nil] at h3 h4 h5
    obtain rfl : pad = 1 := by omega
    obtain ⟨c, d, rfl⟩ := List.length_eq_two.mp (show b.length = 2 by omega)
    have x1 := h1 x (by simp)
    have y1 := h1 y (by simp)
    have z1 := h1 z (by simp)
    have hx := (b64Val_iff _ x).mpr ⟨x1, rfl⟩
    have hy := (b64Val_iff _ y).mpr ⟨y1, rfl⟩
    have hz := (b64Val_iff _ z).mpr ⟨z1, rfl⟩
    simp only [List.map_cons, List.map_nil, List.replicate, List.cons_append, List.nil_append, b64Quads, if_true,
      if_neg (base64_ne z z1), hx, hy, hz]
    simp only [spec.value, beNat, List.foldl_cons, List.foldl_nil] at h5
    norm_num at h5
    have hd := d.toNat_lt
    have hc := c.toNat_lt
    rw [show x * 4 + y / 16 = c.toNat by omega, show y % 16 * 16 + z / 4 = d.toNat by omega, UInt8.ofNat_toNat,
      UInt8.ofNat_toNat]
  | x :: y :: z :: w :: vs, pad, b, h1, h2, h3, h4, h5 => by
    simp only [List.length_cons] at h3 h4 h5
    obtain ⟨f1, f2⟩ := shift_four vs.length
    rw [show vs.length + 1 + 1 + 1 + 1 = vs.length + 4 by rfl] at h3 h4 h5
    rw [f2] at h4
    match b, h4 with
    | c :: d :: e :: r, h4 =>
      have hr : r.length = vs.length * 6 / 8 := by simp only [List.length_cons] at h4; omega
      have hvs : ∀ v ∈ vs, v < 64 := fun v hv => h1 v (by simp [hv])
      obtain ⟨k1, k2⟩ := shift_block vs.length (x * 262144 + y * 4096 + z * 64 + w) _ (value_lt vs hvs)
      rw [f1, value_four, k1, beNat_three, ← hr] at h5
      rw [← hr] at k2
      obtain ⟨j1, j2⟩ := split_eq (beNat_lt r) k2 h5
      have x1 := h1 x (by simp)
      have y1 := h1 y (by simp)
      have z1 := h1 z (by simp)
      have w1 := h1 w (by simp)
      have hx := (b64Val_iff _ x).mpr ⟨x1, rfl⟩
      have hy := (b64Val_iff _ y).mpr ⟨y1, rfl⟩
      have hz := (b64Val_iff _ z).mpr ⟨z1, rfl⟩
      have hw := (b64Val_iff _ w).mpr ⟨w1, rfl⟩
      have ih := quads_of_complete vs pad r hvs h2 (by omega) hr j2
      simp only [List.map_cons, List.cons_append, b64Quads, if_neg (base64_ne z z1), if_neg (base64_ne w w1), hx, hy, hz, hw,
        ih]
      have hc := c.toNat_lt
      have hd := d.toNat_lt
      have he := e.toNat_lt
      rw [show x * 4 + y / 16 = c.toNat by omega, show y % 16 * 16 + z / 4 = d.toNat by omega,
        show z % 4 * 64 + w = e.toNat by omega, UInt8.ofNat_toNat, UInt8.ofNat_toNat, UInt8.ofNat_toNat]

/-- C128: base64: exactly which texts are accepted and what they denote. -/
theorem C128_base64 (s b : Bytes) : b64Decode s = some b ↔ spec.Base64 s b := by
  unfold b64Decode
  constructor
  · intro h
    obtain ⟨vs, pad, h1, h2, h3, h4, h5, h6⟩ := quads_of_sound _ _ h
    exact ⟨vs, pad, h1, h2, h3, h4, h5, h6⟩
  · rintro ⟨vs, pad, h1, h2, h3, h4, h5, h6⟩
    rw [h4]
    exact quads_of_complete vs pad b h1 h2 h3 h5 h6

/-- C128: a text of any of the formats denotes at most one value. -/
theorem C128_unique : (∀ base s z z', spec.Integer base s z → spec.Integer base s z' → z = z') ∧
    (∀ s b b', spec.Hex s b → spec.Hex s b' → b = b') ∧ ∀ s b b', spec.Base64 s b → spec.Base64 s b' → b = b' := by
  refine ⟨fun base s z z' h h' => ?_, fun s b b' h h' => ?_, fun s b b' h h' => ?_⟩
  · rw [← C128_integer] at h h'; rw [h] at h'; exact Option.some.inj h'
  · rw [← C128_hex] at h h'; rw [h] at h'; exact Option.some.inj h'
  · rw [← C128_base64] at h h'; rw [h] at h'; exact Option.some.inj h'

/-- Non-vacuity: a message in base64 with a line end and stray low bits, one whose padding is missing, numerals of both
cases, a number with a space. -/
theorem C128_case : spec.Base64 (ascii "AQ\nJ=") [1, 2] ∧ b64Decode (ascii "AQ\nJ=") = some [1, 2] ∧
    b64Decode (ascii "AQI") = none ∧ b64Decode (ascii "AQI=AQI=") = none ∧
    spec.Hex (ascii "0aFf") [10, 255] ∧ hexDecode (ascii "0aFf") = some [10, 255] ∧
    spec.Integer 10 (ascii "-12") (-12) ∧ parseBig 10 (ascii " 12") = none ∧ parseBig 16 (ascii "0x1") = none := by
  refine ⟨⟨[0, 16, 9], 1, by decide, by decide, by decide, by decide, by decide, by decide⟩, by decide, by decide, by decide,
    ⟨by decide, [0, 10, 15, 15], ?_, by decide⟩, by decide, ⟨12, Or.inr ⟨ascii "12", ⟨by decide, [1, 2], ?_, by decide⟩,
      Or.inr ⟨by decide, by decide⟩⟩⟩, by decide, by decide⟩
  · refine .cons ⟨by decide, Or.inl (by decide)⟩ (.cons ⟨by decide, Or.inl (by decide)⟩
      (.cons ⟨by decide, Or.inr (by decide)⟩ (.cons ⟨by decide, Or.inl (by decide)⟩ .nil)))
  · exact .cons ⟨by decide, Or.inl (by decide)⟩ (.cons ⟨by decide, Or.inl (by decide)⟩ .nil)

end Tss.Text
