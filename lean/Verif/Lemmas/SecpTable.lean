import Verif.Model.SecpTable
import Verif.Lemmas.SecpMult
/-
Every entry of the table of byte points is the multiple of the base point it should be: kernel evaluation of the chain of
additions along each window and from window to window.
-/
namespace Tss.Secp
open Tss

/-- The value of the ten words from word o on. -/
def entryVal (n o : Nat) : Nat :=
  (n >>> (32 * o)) % 2 ^ 32 + (n >>> (32 * (o + 1))) % 2 ^ 32 * 2 ^ 26 + (n >>> (32 * (o + 2))) % 2 ^ 32 * 2 ^ 52 +
    (n >>> (32 * (o + 3))) % 2 ^ 32 * 2 ^ 78 + (n >>> (32 * (o + 4))) % 2 ^ 32 * 2 ^ 104 +
    (n >>> (32 * (o + 5))) % 2 ^ 32 * 2 ^ 130 + (n >>> (32 * (o + 6))) % 2 ^ 32 * 2 ^ 156 +
    (n >>> (32 * (o + 7))) % 2 ^ 32 * 2 ^ 182 + (n >>> (32 * (o + 8))) % 2 ^ 32 * 2 ^ 208 + (n >>> (32 * (o + 9))) % 2 ^ 32 * 2 ^ 234

theorem word_nat (n k : Nat) : (word n k).toNat = (n >>> (32 * k)) % 2 ^ 32 := by
  unfold word; rw [UInt32.toNat_ofNat']

theorem entryField_val (n o : Nat) : (entryField n o).val = entryVal n o := by
  unfold entryField FV.val entryVal
  simp only [word_nat]

/-- The words are small. -/
def entrySmall (n o : Nat) : Bool :=
  Nat.ble ((n >>> (32 * o)) % 2 ^ 32) 134217728 && Nat.ble ((n >>> (32 * (o + 1))) % 2 ^ 32) 134217728 &&
  Nat.ble ((n >>> (32 * (o + 2))) % 2 ^ 32) 134217728 && Nat.ble ((n >>> (32 * (o + 3))) % 2 ^ 32) 134217728 &&
  Nat.ble ((n >>> (32 * (o + 4))) % 2 ^ 32) 134217728 && Nat.ble ((n >>> (32 * (o + 5))) % 2 ^ 32) 134217728 &&
  Nat.ble ((n >>> (32 * (o + 6))) % 2 ^ 32) 134217728 && Nat.ble ((n >>> (32 * (o + 7))) % 2 ^ 32) 134217728 &&
  Nat.ble ((n >>> (32 * (o + 8))) % 2 ^ 32) 134217728 && Nat.ble ((n >>> (32 * (o + 9))) % 2 ^ 32) 4194304

theorem entryField_rp {n o : Nat} (h : entrySmall n o = true) : (entryField n o).Rp 2 ((entryVal n o : Nat) : ZMod p) := by
  unfold entrySmall at h
  simp only [Bool.and_eq_true, Nat.ble_eq, ← word_nat] at h
  obtain ⟨⟨⟨⟨⟨⟨⟨⟨⟨a0, a1⟩, a2⟩, a3⟩, a4⟩, a5⟩, a6⟩, a7⟩, a8⟩, a9⟩ := h
  refine ⟨?_, by rw [entryField_val]⟩
  constructor <;> simp only [entryField] <;> omega

/-- The point as a triple of numbers. -/
def entryNJ (n : Nat) : NJ := ⟨entryVal n 0, entryVal n 10, entryVal n 20⟩

/-- All words of the point are small. -/
def pointSmall (n : Nat) : Bool := entrySmall n 0 && entrySmall n 10 && entrySmall n 20

theorem entryPoint_rep {n : Nat} {P : E.Point} (h : pointSmall n = true) (hr : (entryNJ n).Rep P) : (entryPoint n).Rep P := by
  unfold pointSmall at h
  simp only [Bool.and_eq_true] at h
  exact ⟨_, _, _, entryField_rp h.1.1, entryField_rp h.1.2, entryField_rp h.2, Or.inr hr⟩

theorem entryPoint_zero : (entryPoint 0).Rep 0 :=
  ⟨_, _, _, entryField_rp (by decide), entryField_rp (by decide), entryField_rp (by decide), Or.inl ⟨rfl, Or.inl (by decide)⟩⟩

/-- Each number of the list is the point before it plus g. -/
def chain (g : NJ) : NJ → List Nat → Bool
  | _, [] => true
  | cur, n :: t =>
    pointSmall n && (let s := cur.add g; s.z != 0 && (entryNJ n).same s) && chain g (entryNJ n) t

theorem chain_rep {g : NJ} {P : E.Point} (hg : g.Rep P) : ∀ (l : List Nat) (cur : NJ) (k : Nat), cur.Rep (k • P) →
    chain g cur l = true → ∀ i < l.length, pointSmall (l.getD i 0) = true ∧ (entryNJ (l.getD i 0)).Rep ((k + 1 + i) • P)
  | [], _, _, _, _, i, hi => absurd hi (by simp)
  | n :: t, cur, k, hc, h, i, hi => by
    unfold chain at h
    simp only [Bool.and_eq_true, bne_iff_ne, ne_eq] at h
    obtain ⟨⟨h1, h2, h3⟩, h4⟩ := h
    have hn : (entryNJ n).Rep ((k + 1) • P) := by
      rw [succ_nsmul]
      exact NJ.same_rep (NJ.add_rep hc hg h2) h3
    cases i with
    | zero => exact ⟨h1, hn⟩
    | succ i =>
      have := chain_rep hg t (entryNJ n) (k + 1) hn h4 i (by simpa using hi)
      rw [List.getD_cons_succ]
      have e : k + 1 + (i + 1) = k + 1 + 1 + i := by omega
      rw [e]
      exact this

/-- The check of one window, given a triple for its step. -/
def rowOk (g : NJ) : List Nat → Bool
  | n0 :: n1 :: n2 :: t =>
    n0 == 0 && (pointSmall n1 && (entryNJ n1).same g) && (pointSmall n2 && (entryNJ n2).same (entryNJ n1).dbl) &&
      chain (entryNJ n1) (entryNJ n2) t && t.length == 253
  | _ => false

theorem rowOk_rep {g : NJ} {P : E.Point} (hg : g.Rep P) {l : List Nat} (h : rowOk g l = true) :
    l.length = 256 ∧ l.getD 0 0 = 0 ∧ ∀ b, 0 < b → b < 256 → pointSmall (l.getD b 0) = true ∧ (entryNJ (l.getD b 0)).Rep (b • P) := by
  match l, h with
  | n0 :: n1 :: n2 :: t, h =>
    unfold rowOk at h
    simp only [Bool.and_eq_true, beq_iff_eq] at h
    obtain ⟨⟨⟨⟨h0, h1, h1'⟩, h2, h2'⟩, h3⟩, h4⟩ := h
    have r1 := NJ.same_rep hg h1'
    have r2 : (entryNJ n2).Rep (2 • P) := by rw [two_nsmul]; exact NJ.same_rep (NJ.dbl_rep r1) h2'
    refine ⟨by simp [h4], h0, ?_⟩
    intro b hb0 hb
    match b with
    | 1 => exact ⟨h1, by rw [one_nsmul]; exact r1⟩
    | 2 => exact ⟨h2, r2⟩
    | b + 3 =>
      have := chain_rep r1 t (entryNJ n2) 2 r2 h3 b (by omega)
      have e : b + 3 = 2 + 1 + b := by omega
      simp only [List.getD_cons_succ]
      rw [e]
      exact this

/-- The step of the window before: 256 times the step of this window. -/
def nextStep (l : List Nat) : NJ := (entryNJ (l.getD 255 0)).add (entryNJ (l.getD 1 0))

theorem nextStep_rep {g : NJ} {P : E.Point} (hg : g.Rep P) {l : List Nat} (h : rowOk g l = true) (hz : (nextStep l).z ≠ 0) :
    (nextStep l).Rep (256 • P) := by
  obtain ⟨-, -, h⟩ := rowOk_rep hg h
  have h1 := (h 1 (by omega) (by omega)).2
  have h255 := (h 255 (by omega) (by omega)).2
  have := NJ.add_rep h255 h1 hz
  rwa [← add_nsmul] at this

/-- A window whose step is P. -/
def Window (l : List Nat) (P : E.Point) : Prop := ∀ b < 256, (entryPoint (l.getD b 0)).Rep (b • P)

theorem window_of {g : NJ} {P : E.Point} (hg : g.Rep P) {l : List Nat} (h : rowOk g l = true) : Window l P := by
  intro b hb
  obtain ⟨-, h0, h⟩ := rowOk_rep hg h
  cases b with
  | zero => rw [h0, zero_nsmul]; exact entryPoint_zero
  | succ b =>
    obtain ⟨h1, h2⟩ := h (b + 1) (by omega) hb
    exact entryPoint_rep h1 h2

theorem row31_ok : rowOk (nG) tableRow31 = true := by decide +kernel
theorem step31_rep : (nG).Rep (256 ^ 0 • G) := by
  rw [pow_zero, one_nsmul]; exact nG_rep

theorem row30_ok : rowOk (nextStep tableRow31) tableRow30 = true := by decide +kernel
theorem step30_rep : (nextStep tableRow31).Rep (256 ^ 1 • G) := by
  rw [pow_succ, mul_nsmul]; exact nextStep_rep step31_rep row31_ok (by decide +kernel)

theorem row29_ok : rowOk (nextStep tableRow30) tableRow29 = true := by decide +kernel
theorem step29_rep : (nextStep tableRow30).Rep (256 ^ 2 • G) := by
  rw [pow_succ, mul_nsmul]; exact nextStep_rep step30_rep row30_ok (by decide +kernel)

theorem row28_ok : rowOk (nextStep tableRow29) tableRow28 = true := by decide +kernel
theorem step28_rep : (nextStep tableRow29).Rep (256 ^ 3 • G) := by
  rw [pow_succ, mul_nsmul]; exact nextStep_rep step29_rep row29_ok (by decide +kernel)

theorem row27_ok : rowOk (nextStep tableRow28) tableRow27 = true := by decide +kernel
theorem step27_rep : (nextStep tableRow28).Rep (256 ^ 4 • G) := by
  rw [pow_succ, mul_nsmul]; exact nextStep_rep step28_rep row28_ok (by decide +kernel)

theorem row26_ok : rowOk (nextStep tableRow27) tableRow26 = true := by decide +kernel
theorem step26_rep : (nextStep tableRow27).Rep (256 ^ 5 • G) := by
  rw [pow_succ, mul_nsmul]; exact nextStep_rep step27_rep row27_ok (by decide +kernel)

theorem row25_ok : rowOk (nextStep tableRow26) tableRow25 = true := by decide +kernel
theorem step25_rep : (nextStep tableRow26).Rep (256 ^ 6 • G) := by
  rw [pow_succ, mul_nsmul]; exact nextStep_rep step26_rep row26_ok (by decide +kernel)

theorem row24_ok : rowOk (nextStep tableRow25) tableRow24 = true := by decide +kernel
theorem step24_rep : (nextStep tableRow25).Rep (256 ^ 7 • G) := by
  rw [pow_succ, mul_nsmul]; exact nextStep_rep step25_rep row25_ok (by decide +kernel)

theorem row23_ok : rowOk (nextStep tableRow24) tableRow23 = true := by decide +kernel
theorem step23_rep : (nextStep tableRow24).Rep (256 ^ 8 • G) := by
  rw [pow_succ, mul_nsmul]; exact nextStep_rep step24_rep row24_ok (by decide +kernel)

theorem row22_ok : rowOk (nextStep tableRow23) tableRow22 = true := by decide +kernel
theorem step22_rep : (nextStep tableRow23).Rep (256 ^ 9 • G) := by
  rw [pow_succ, mul_nsmul]; exact nextStep_rep step23_rep row23_ok (by decide +kernel)

theorem row21_ok : rowOk (nextStep tableRow22) tableRow21 = true := by decide +kernel
theorem step21_rep : (nextStep tableRow22).Rep (256 ^ 10 • G) := by
  rw [pow_succ, mul_nsmul]; exact nextStep_rep step22_rep row22_ok (by decide +kernel)

theorem row20_ok : rowOk (nextStep tableRow21) tableRow20 = true := by decide +kernel
theorem step20_rep : (nextStep tableRow21).Rep (256 ^ 11 • G) := by
  rw [pow_succ, mul_nsmul]; exact nextStep_rep step21_rep row21_ok (by decide +kernel)

theorem row19_ok : rowOk (nextStep tableRow20) tableRow19 = true := by decide +kernel
theorem step19_rep : (nextStep tableRow20).Rep (256 ^ 12 • G) := by
  rw [pow_succ, mul_nsmul]; exact nextStep_rep step20_rep row20_ok (by decide +kernel)

theorem row18_ok : rowOk (nextStep tableRow19) tableRow18 = true := by decide +kernel
theorem step18_rep : (nextStep tableRow19).Rep (256 ^ 13 • G) := by
  rw [pow_succ, mul_nsmul]; exact nextStep_rep step19_rep row19_ok (by decide +kernel)

theorem row17_ok : rowOk (nextStep tableRow18) tableRow17 = true := by decide +kernel
theorem step17_rep : (nextStep tableRow18).Rep (256 ^ 14 • G) := by
  rw [pow_succ, mul_nsmul]; exact nextStep_rep step18_rep row18_ok (by decide +kernel)

theorem row16_ok : rowOk (nextStep tableRow17) tableRow16 = true := by decide +kernel
theorem step16_rep : (nextStep tableRow17).Rep (256 ^ 15 • G) := by
  rw [pow_succ, mul_nsmul]; exact nextStep_rep step17_rep row17_ok (by decide +kernel)

theorem row15_ok : rowOk (nextStep tableRow16) tableRow15 = true := by decide +kernel
theorem step15_rep : (nextStep tableRow16).Rep (256 ^ 16 • G) := by
  rw [pow_succ, mul_nsmul]; exact nextStep_rep step16_rep row16_ok (by decide +kernel)

theorem row14_ok : rowOk (nextStep tableRow15) tableRow14 = true := by decide +kernel
theorem step14_rep : (nextStep tableRow15).Rep (256 ^ 17 • G) := by
  rw [pow_succ, mul_nsmul]; exact nextStep_rep step15_rep row15_ok (by decide +kernel)

theorem row13_ok : rowOk (nextStep tableRow14) tableRow13 = true := by decide +kernel
theorem step13_rep : (nextStep tableRow14).Rep (256 ^ 18 • G) := by
  rw [pow_succ, mul_nsmul]; exact nextStep_rep step14_rep row14_ok (by decide +kernel)

theorem row12_ok : rowOk (nextStep tableRow13) tableRow12 = true := by decide +kernel
theorem step12_rep : (nextStep tableRow13).Rep (256 ^ 19 • G) := by
  rw [pow_succ, mul_nsmul]; exact nextStep_rep step13_rep row13_ok (by decide +kernel)

theorem row11_ok : rowOk (nextStep tableRow12) tableRow11 = true := by decide +kernel
theorem step11_rep : (nextStep tableRow12).Rep (256 ^ 20 • G) := by
  rw [pow_succ, mul_nsmul]; exact nextStep_rep step12_rep row12_ok (by decide +kernel)

theorem row10_ok : rowOk (nextStep tableRow11) tableRow10 = true := by decide +kernel
theorem step10_rep : (nextStep tableRow11).Rep (256 ^ 21 • G) := by
  rw [pow_succ, mul_nsmul]; exact nextStep_rep step11_rep row11_ok (by decide +kernel)

theorem row9_ok : rowOk (nextStep tableRow10) tableRow9 = true := by decide +kernel
theorem step9_rep : (nextStep tableRow10).Rep (256 ^ 22 • G) := by
  rw [pow_succ, mul_nsmul]; exact nextStep_rep step10_rep row10_ok (by decide +kernel)

theorem row8_ok : rowOk (nextStep tableRow9) tableRow8 = true := by decide +kernel
theorem step8_rep : (nextStep tableRow9).Rep (256 ^ 23 • G) := by
  rw [pow_succ, mul_nsmul]; exact nextStep_rep step9_rep row9_ok (by decide +kernel)

theorem row7_ok : rowOk (nextStep tableRow8) tableRow7 = true := by decide +kernel
theorem step7_rep : (nextStep tableRow8).Rep (256 ^ 24 • G) := by
  rw [pow_succ, mul_nsmul]; exact nextStep_rep step8_rep row8_ok (by decide +kernel)

theorem row6_ok : rowOk (nextStep tableRow7) tableRow6 = true := by decide +kernel
theorem step6_rep : (nextStep tableRow7).Rep (256 ^ 25 • G) := by
  rw [pow_succ, mul_nsmul]; exact nextStep_rep step7_rep row7_ok (by decide +kernel)

theorem row5_ok : rowOk (nextStep tableRow6) tableRow5 = true := by decide +kernel
theorem step5_rep : (nextStep tableRow6).Rep (256 ^ 26 • G) := by
  rw [pow_succ, mul_nsmul]; exact nextStep_rep step6_rep row6_ok (by decide +kernel)

theorem row4_ok : rowOk (nextStep tableRow5) tableRow4 = true := by decide +kernel
theorem step4_rep : (nextStep tableRow5).Rep (256 ^ 27 • G) := by
  rw [pow_succ, mul_nsmul]; exact nextStep_rep step5_rep row5_ok (by decide +kernel)

theorem row3_ok : rowOk (nextStep tableRow4) tableRow3 = true := by decide +kernel
theorem step3_rep : (nextStep tableRow4).Rep (256 ^ 28 • G) := by
  rw [pow_succ, mul_nsmul]; exact nextStep_rep step4_rep row4_ok (by decide +kernel)

theorem row2_ok : rowOk (nextStep tableRow3) tableRow2 = true := by decide +kernel
theorem step2_rep : (nextStep tableRow3).Rep (256 ^ 29 • G) := by
  rw [pow_succ, mul_nsmul]; exact nextStep_rep step3_rep row3_ok (by decide +kernel)

theorem row1_ok : rowOk (nextStep tableRow2) tableRow1 = true := by decide +kernel
theorem step1_rep : (nextStep tableRow2).Rep (256 ^ 30 • G) := by
  rw [pow_succ, mul_nsmul]; exact nextStep_rep step2_rep row2_ok (by decide +kernel)

theorem row0_ok : rowOk (nextStep tableRow1) tableRow0 = true := by decide +kernel
theorem step0_rep : (nextStep tableRow1).Rep (256 ^ 31 • G) := by
  rw [pow_succ, mul_nsmul]; exact nextStep_rep step1_rep row1_ok (by decide +kernel)

/-- Window i of the table has step 256^(31-i)·G. -/
theorem window_rep : ∀ i < 32, Window (tableRows.getD i []) (256 ^ (31 - i) • G)
  | 0, _ => window_of step0_rep row0_ok
  | 1, _ => window_of step1_rep row1_ok
  | 2, _ => window_of step2_rep row2_ok
  | 3, _ => window_of step3_rep row3_ok
  | 4, _ => window_of step4_rep row4_ok
  | 5, _ => window_of step5_rep row5_ok
  | 6, _ => window_of step6_rep row6_ok
  | 7, _ => window_of step7_rep row7_ok
  | 8, _ => window_of step8_rep row8_ok
  | 9, _ => window_of step9_rep row9_ok
  | 10, _ => window_of step10_rep row10_ok
  | 11, _ => window_of step11_rep row11_ok
  | 12, _ => window_of step12_rep row12_ok
  | 13, _ => window_of step13_rep row13_ok
  | 14, _ => window_of step14_rep row14_ok
  | 15, _ => window_of step15_rep row15_ok
  | 16, _ => window_of step16_rep row16_ok
  | 17, _ => window_of step17_rep row17_ok
  | 18, _ => window_of step18_rep row18_ok
  | 19, _ => window_of step19_rep row19_ok
  | 20, _ => window_of step20_rep row20_ok
  | 21, _ => window_of step21_rep row21_ok
  | 22, _ => window_of step22_rep row22_ok
  | 23, _ => window_of step23_rep row23_ok
  | 24, _ => window_of step24_rep row24_ok
  | 25, _ => window_of step25_rep row25_ok
  | 26, _ => window_of step26_rep row26_ok
  | 27, _ => window_of step27_rep row27_ok
  | 28, _ => window_of step28_rep row28_ok
  | 29, _ => window_of step29_rep row29_ok
  | 30, _ => window_of step30_rep row30_ok
  | 31, _ => window_of step31_rep row31_ok
  | i + 32, h => absurd h (by omega)

/-- Entry b of window i is b·256^(31-i)·G. -/
theorem bytePoint_rep {i b : Nat} (hi : i < 32) (hb : b < 256) : (bytePoint i b).Rep ((b * 256 ^ (31 - i)) • G) := by
  have := window_rep i hi b hb
  rw [← mul_nsmul, Nat.mul_comm] at this
  exact this

theorem sbmLoop_rep : ∀ (k : Bytes) (i : Nat) (q : Jac) (Q : E.Point), i + k.length = 32 → q.Rep Q →
    (sbmLoop bytePoint i q k).Rep (Q + beNat k • G)
  | [], i, q, Q, _, hq => by
    have : beNat [] = 0 := rfl
    rw [this, zero_nsmul, add_zero]; exact hq
  | b :: t, i, q, Q, h, hq => by
    unfold sbmLoop
    rw [List.length_cons] at h
    have := sbmLoop_rep t (i + 1) _ _ (by omega) (addJacobian_rep hq (bytePoint_rep (i := i) (by omega) (UInt8.toNat_lt b)))
    have e : 31 - i = t.length := by omega
    rw [add_assoc, e, ← add_nsmul, ← beNat_cons] at this
    exact this

/-- ScalarBaseMult multiplies the base point. -/
theorem scalarBaseMult_spec (k : Bytes) : scalarBaseMult bytePoint k = coords (beNat k • G) := by
  obtain ⟨h1, h2⟩ := moduloReduce_spec k
  have := sbmLoop_rep (moduloReduce k) (32 - (moduloReduce k).length) Jac.inf 0 (by omega) inf_rep
  unfold scalarBaseMult
  simp only
  rw [toAffine_rep this, zero_add, ← natCast_zsmul, ← natCast_zsmul, coords_mod G h1]

end Tss.Secp
