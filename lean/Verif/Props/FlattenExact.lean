import Verif.Props.EC
/-
C26: what FlattenECPoints and UnFlattenECPoints accept, exactly.
-/
namespace Tss.ECPoint
open Tss

/-! ### Specification -/

/-- The coordinates of points, one after the other. -/
def spec.coords (ps : List ECPoint) : List (Option Int) := ps.flatMap fun p => [some p.x, some p.y]

/-! ### Proofs -/

theorem flattenLoop_iff (l : List RawPoint) (flat : List (Option Int)) :
    flattenLoop l = some flat ↔ ∃ ps : List ECPoint, l = ps.map raw ∧ flat = spec.coords ps := by
  constructor
  · revert flat
    induction l with
    | nil => intro flat h; exact ⟨[], rfl, by simpa [flattenLoop, spec.coords, eq_comm] using h⟩
    | cons p l ih =>
      intro flat h
      match p with
      | some (some x, some y) =>
        simp only [flattenLoop, Option.map_eq_some_iff] at h
        obtain ⟨r, hr, rfl⟩ := h
        obtain ⟨ps, e1, e2⟩ := ih r hr
        exact ⟨⟨x, y⟩ :: ps, by rw [e1]; rfl, by rw [e2]; rfl⟩
      | none => simp [flattenLoop] at h
      | some (none, _) => simp [flattenLoop] at h
      | some (some _, none) => simp [flattenLoop] at h
  · rintro ⟨ps, rfl, rfl⟩
    induction ps with
    | nil => rfl
    | cons p t ih => simp [flattenLoop, raw, spec.coords] at ih ⊢; simp [ih]

/-- C26. FlattenECPoints succeeds exactly on lists (not nil) of points with both coordinates, and gives their coordinates in order. -/
theorem C26_flatten_iff (l : Option (List RawPoint)) (flat : List (Option Int)) :
    FlattenECPoints l = some flat ↔ ∃ ps : List ECPoint, l = some (ps.map raw) ∧ flat = spec.coords ps := by
  unfold FlattenECPoints
  cases l with
  | none => simp
  | some l => simp only [flattenLoop_iff, Option.some.injEq]

theorem unflattenLoop_nocheck (c : Curve) : ∀ (l : List (Option Int)) (ps : List RawPoint), l.length % 2 = 0 →
    unflattenLoop c true l = some ps → noNilCoords ps = true →
    ∃ qs : List ECPoint, ps = qs.map raw ∧ l = spec.coords qs
  | [], ps, _, h, _ => ⟨[], by simpa [unflattenLoop] using h.symm, rfl⟩
  | [x], ps, hl, h, _ => by simp at hl
  | x :: y :: t, ps, hl, h, hn => by
    unfold unflattenLoop at h
    rw [if_pos rfl, Option.map_eq_some_iff] at h
    obtain ⟨rs, hr, rfl⟩ := h
    cases x with
    | none => simp [noNilCoords] at hn
    | some a =>
      cases y with
      | none => simp [noNilCoords] at hn
      | some b =>
        obtain ⟨qs, e1, e2⟩ := unflattenLoop_nocheck c t rs (by simp only [List.length_cons] at hl; omega) hr (by simpa [noNilCoords] using hn)
        exact ⟨⟨a, b⟩ :: qs, by rw [e1]; rfl, by rw [e2]; rfl⟩

/-- C26. UnFlattenECPoints succeeds exactly if its argument (not nil) is the list of coordinates of points, none of them nil, which must be on the
curve unless the check is disabled; it then returns these points. -/
theorem C26_unflatten_iff (c : Curve) (ins : Option (List (Option Int))) (noCheck : Bool) (out : List RawPoint) :
    UnFlattenECPoints c ins noCheck = some out ↔
      ∃ ps : List ECPoint, ins = some (spec.coords ps) ∧ out = ps.map raw ∧ (noCheck = false → ∀ p ∈ ps, c.On p) := by
  have len : ∀ ps : List ECPoint, (spec.coords ps).length % 2 = 0 := by
    intro ps
    unfold spec.coords
    induction ps with
    | nil => rfl
    | cons p t ih => simp at ih ⊢; omega
  unfold UnFlattenECPoints
  cases ins with
  | none => simp
  | some l =>
    simp only [Option.some.injEq]
    constructor
    · intro h
      by_cases hl : l.length % 2 = 0
      swap
      · rw [if_pos hl] at h; cases h
      rw [if_neg (by omega)] at h
      cases hu : unflattenLoop c noCheck l with
      | none => rw [hu] at h; cases h
      | some rs =>
        rw [hu] at h
        simp only at h
        by_cases hn : noNilCoords rs = true
        swap
        · rw [if_neg hn] at h; cases h
        rw [if_pos hn, Option.some.injEq] at h
        subst h
        cases noCheck with
        | true =>
          obtain ⟨qs, e1, e2⟩ := unflattenLoop_nocheck c l rs hl hu hn
          exact ⟨qs, e2, e1, by simp⟩
        | false =>
          obtain ⟨qs, e1, e2, e3⟩ := unflattenLoop_ok c l rs hl hu
          exact ⟨qs, e3, e1, fun _ => e2⟩
    · rintro ⟨ps, rfl, rfl, hon⟩
      rw [if_neg (by rw [len]; simp)]
      have : unflattenLoop c noCheck (spec.coords ps) = some (ps.map raw) := by
        cases noCheck with
        | true => exact unflatten_flat_nocheck c ps
        | false => exact unflatten_flat c ps (hon rfl)
      rw [this]
      simp only
      rw [if_pos (noNil_raw ps)]

/-- Non-vacuity: a nil coordinate is refused with and without the check, and so is a point without one. -/
theorem C26_case (c : Curve) : UnFlattenECPoints c (some [some 1, none]) true = none ∧ UnFlattenECPoints c (some [some 1, none]) false = none ∧
    UnFlattenECPoints c (some [some 1, some 2, some 3]) true = none ∧ UnFlattenECPoints c (some [some 1, some 2]) true = some [raw ⟨1, 2⟩] ∧
    FlattenECPoints (some [raw ⟨1, 2⟩, none]) = none ∧ FlattenECPoints (some []) = some [] := by
  refine ⟨rfl, rfl, rfl, rfl, rfl, rfl⟩

end Tss.ECPoint
