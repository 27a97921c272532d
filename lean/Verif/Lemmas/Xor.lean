import Verif.Model.Xor
import Mathlib.Data.List.Basic
import Mathlib.Tactic
/-! Algebra of `Xor`. -/
namespace Tss

theorem xorPrefix_length : ∀ (a b : Bytes), b.length ≤ a.length → (xorPrefix a b).length = a.length
  | [], [], _ => rfl
  | a :: s, [], _ => rfl
  | a :: s, b :: t, h => by
    simp only [xorPrefix, List.length_cons] at *
    rw [xorPrefix_length s t (by omega)]
  | [], b :: t, h => by simp at h

theorem xorPrefix_getD : ∀ (a b : Bytes), b.length ≤ a.length → ∀ i,
    (xorPrefix a b).getD i 0 = a.getD i 0 ^^^ b.getD i 0
  | [], [], _, i => by simp [xorPrefix]
  | a :: s, [], _, i => by simp [xorPrefix]
  | a :: s, b :: t, h, i => by
    cases i with
    | zero => simp [xorPrefix]
    | succ i =>
      have := xorPrefix_getD s t (by simpa using h) i
      simpa [xorPrefix] using this
  | [], b :: t, h, _ => by simp at h

theorem xorBytes_length (a b : Bytes) : (xorBytes a b).length = max a.length b.length := by
  unfold xorBytes
  split
  · rw [xorPrefix_length _ _ (by omega)]; omega
  · rw [xorPrefix_length _ _ (by omega)]; omega

/-- Xor works byte by byte, the shorter input being extended with zeros. -/
theorem xorBytes_getD (a b : Bytes) (i : Nat) : (xorBytes a b).getD i 0 = a.getD i 0 ^^^ b.getD i 0 := by
  unfold xorBytes
  split
  · rw [xorPrefix_getD _ _ (by omega), UInt8.xor_comm]
  · rw [xorPrefix_getD _ _ (by omega)]

theorem bytes_ext {a b : Bytes} (hl : a.length = b.length) (h : ∀ i, a.getD i 0 = b.getD i 0) : a = b := by
  apply List.ext_getElem hl
  intro i h1 h2
  have := h i
  simpa [List.getD_eq_getElem?_getD, h1, h2] using this

theorem xorBytes_comm (a b : Bytes) : xorBytes a b = xorBytes b a := by
  apply bytes_ext
  · simp [xorBytes_length, max_comm]
  · intro i; rw [xorBytes_getD, xorBytes_getD, UInt8.xor_comm]

theorem xorBytes_assoc (a b c : Bytes) : xorBytes (xorBytes a b) c = xorBytes a (xorBytes b c) := by
  apply bytes_ext
  · simp [xorBytes_length, max_assoc]
  · intro i; simp only [xorBytes_getD, UInt8.xor_assoc]

theorem xorBytes_right_comm (a b c : Bytes) : xorBytes (xorBytes a b) c = xorBytes (xorBytes a c) b := by
  rw [xorBytes_assoc, xorBytes_comm b c, ← xorBytes_assoc]

theorem xorBytes_nil (a : Bytes) : xorBytes a [] = a := by
  apply bytes_ext
  · simp [xorBytes_length]
  · intro i; rw [xorBytes_getD]; simp

/-- A second xor with the same bytes cancels the first, if they are not longer than the base. -/
theorem xorBytes_cancel (a b : Bytes) (h : b.length ≤ a.length) : xorBytes (xorBytes a b) b = a := by
  apply bytes_ext
  · simp only [xorBytes_length]; omega
  · intro i; simp only [xorBytes_getD, UInt8.xor_assoc, UInt8.xor_self, UInt8.xor_zero]

end Tss
