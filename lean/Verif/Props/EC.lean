import Verif.Lemmas.EC
/-
Properties C23-C27 (crypto/ecpoint.go, tss/curve.go).
-/
namespace Tss.ECPoint
open Tss

variable {c : Curve} {G : Type} [AddCommGroup G]

/-! ## C23 -/

/-- C23: construction succeeds exactly on coordinates that satisfy the curve equation, and keeps them. -/
theorem C23_new_iff (c : Curve) (x y : Int) :
    (∀ p, ECPoint.new c x y = some p ↔ (c.isOnCurve x y = true ∧ p = ⟨x, y⟩)) ∧
    (ECPoint.new c x y = none ↔ c.isOnCurve x y = false) := by
  unfold ECPoint.new
  constructor
  · intro p
    split
    · next h => simp [h, eq_comm]
    · next h => simp [h]
  · split
    · next h => simp [h]
    · next h => simpa using h

/-- C23: on a lawful curve, the results of all point operations on valid points exist and are valid. -/
theorem C23_closed (L : Lawful c G) (p q : ECPoint) (hp : c.On p) (hq : c.On q) (k : Int) :
    (∃ r, ECPoint.add c p q = some r ∧ c.On r) ∧
    (∃ r, ECPoint.scalarMult c p k = some r ∧ c.On r) ∧
    (∃ r, ECPoint.scalarBaseMult c k = some r ∧ c.On r) ∧
    (Int.gcd 8 c.N = 1 → ∃ r, ECPoint.eightInvEight c p = .ok (some r) ∧ c.On r) := by
  refine ⟨⟨_, L.add_pt hp hq, L.on_pt _⟩, ⟨_, L.scalarMult_pt hp k, L.on_pt _⟩,
    ⟨_, L.scalarBaseMult_pt k, L.on_pt _⟩, ?_⟩
  intro h8
  obtain ⟨inv, -, -, -, h⟩ := L.eightInvEight_pt hp h8
  exact ⟨_, h, L.on_pt _⟩

/-- C23: for an arbitrary (also unlawful) curve implementation, whatever point the API hands out passed
the curve check. -/
theorem C23_results_checked (c : Curve) (p q r : ECPoint) (k : Int) :
    (ECPoint.add c p q = some r → c.On r) ∧ (ECPoint.scalarMult c p k = some r → c.On r) ∧
    (ECPoint.scalarBaseMult c k = some r → c.On r) ∧ (ECPoint.eightInvEight c p = .ok (some r) → c.On r) := by
  have h : ∀ x y, ECPoint.new c x y = some r → c.On r := by
    intro x y h
    obtain ⟨h1, rfl⟩ := ((C23_new_iff c x y).1 r).mp h
    exact h1
  refine ⟨h _ _, h _ _, h _ _, ?_⟩
  unfold ECPoint.eightInvEight
  cases ECPoint.scalarMult c p 8 with
  | none => simp
  | some q =>
    cases modInverse 8 c.N with
    | none => simp
    | some inv =>
      simp only [Res.ok.injEq]
      exact h _ _

example : toyCurve.On ⟨3, 5⟩ ∧ ECPoint.add toyCurve ⟨3, 5⟩ ⟨10, 6⟩ = some ⟨2, 3⟩ ∧ ECPoint.new toyCurve 11 0 = none := by
  refine ⟨?_, ?_, ?_⟩ <;> decide

/-! ## C24 -/

/-- C24: on points of order dividing N, `ScalarMult` is the action of the integers modulo N: it turns
addition of scalars into `Add`, multiplication of scalars into repeated `ScalarMult`, and depends only
on the scalar modulo N (negative and oversized scalars included); 1 acts trivially on canonical points. -/
theorem C24_scalar_action (L : Lawful c G) (p : ECPoint) (hp : c.On p) (hN : c.N • L.val p = 0) (a b : Int) :
    (∀ pa pb, ECPoint.scalarMult c p a = some pa → ECPoint.scalarMult c p b = some pb →
      ECPoint.scalarMult c p (a + b) = ECPoint.add c pa pb) ∧
    (∀ pb, ECPoint.scalarMult c p b = some pb →
      ECPoint.scalarMult c p (a * b) = ECPoint.scalarMult c pb a) ∧
    (a ≡ b [ZMOD c.N] → ECPoint.scalarMult c p a = ECPoint.scalarMult c p b) ∧
    ECPoint.scalarMult c p a = some (L.pt (a • L.val p)) := by
  have key : ∀ k, ECPoint.scalarMult c p k = some (L.pt (k • L.val p)) := by
    intro k; rw [L.scalarMult_pt hp, Lawful.emod_smul hN]
  refine ⟨?_, ?_, ?_, key a⟩
  · intro pa pb ha hb
    rw [key] at ha hb ⊢
    simp only [Option.some.injEq] at ha hb
    subst ha hb
    rw [L.add_pt (L.on_pt _) (L.on_pt _), L.val_pt, L.val_pt, add_smul]
  · intro pb hb
    rw [key] at hb ⊢
    simp only [Option.some.injEq] at hb
    subst hb
    rw [L.scalarMult_pt (L.on_pt _), L.val_pt, Lawful.emod_smul, mul_smul]
    rw [smul_comm, hN, smul_zero]
  · intro h
    rw [L.scalarMult_pt hp, L.scalarMult_pt hp, h]

/-- C24: `ScalarBaseMult` agrees with `ScalarMult` of the generator and is additive. -/
theorem C24_base (L : Lawful c G) (a b : Int) :
    ECPoint.scalarBaseMult c a = ECPoint.scalarMult c ⟨c.Gx, c.Gy⟩ a ∧
    (∀ pa pb, ECPoint.scalarBaseMult c a = some pa → ECPoint.scalarBaseMult c b = some pb →
      ECPoint.scalarBaseMult c (a + b) = ECPoint.add c pa pb) ∧
    (a ≡ b [ZMOD c.N] → ECPoint.scalarBaseMult c a = ECPoint.scalarBaseMult c b) := by
  refine ⟨?_, ?_, ?_⟩
  · rw [L.scalarBaseMult_pt, L.scalarMult_pt (p := ⟨c.Gx, c.Gy⟩) L.base_onCurve]
    have : L.val ⟨c.Gx, c.Gy⟩ = L.base := L.base_eq
    rw [this, Lawful.emod_smul L.N_base]
  · intro pa pb ha hb
    rw [L.scalarBaseMult_pt] at ha hb ⊢
    simp only [Option.some.injEq] at ha hb
    subst ha hb
    rw [L.add_pt (L.on_pt _) (L.on_pt _), L.val_pt, L.val_pt, add_smul]
  · intro h
    unfold ECPoint.scalarBaseMult
    rw [h]

/-- C24, limit: outside the subgroup the law fails, because the scalar is reduced modulo N first:
on the toy curve of cofactor 8, (5+6)·P ≠ 5·P + 6·P for a point with a torsion part. -/
theorem C24_fails_outside_subgroup : ∃ (p pa pb : ECPoint), toyCurve.On p ∧
    ECPoint.scalarMult toyCurve p 5 = some pa ∧ ECPoint.scalarMult toyCurve p 6 = some pb ∧
    ECPoint.scalarMult toyCurve p (5 + 6) ≠ ECPoint.add toyCurve pa pb :=
  ⟨⟨0, 1⟩, ⟨0, 5⟩, ⟨0, 6⟩, by decide, by decide, by decide, by decide⟩

example : toyCurve.On ⟨4, 0⟩ ∧ toyCurve.N • toyLawful.val ⟨4, 0⟩ = 0 := ⟨by decide, by decide⟩

/-! ## C25 -/

/-- C25: on a lawful curve with N coprime to 8 and greater than 8, `EightInvEight` of a point whose
value is `S + T` with `N•S = 0` and `8•T = 0` is the point of `S`: the torsion part is removed and the
subgroup part kept. -/
theorem C25_clears_torsion (L : Lawful c G) (h8 : Int.gcd 8 c.N = 1) (hbig : 8 < c.N) (p : ECPoint) (hp : c.On p)
    (S T : G) (hval : L.val p = S + T) (hS : c.N • S = 0) (hT : (8 : Int) • T = 0) :
    ECPoint.eightInvEight c p = .ok (some (L.pt S)) := by
  obtain ⟨inv, hinv, -, -, h⟩ := L.eightInvEight_pt hp h8
  rw [h]
  congr 3
  rw [Int.emod_eq_of_lt (by omega) hbig, hval, smul_add, hT, add_zero, ← mul_smul, mul_comm,
    ← Lawful.emod_smul hS, hinv, Lawful.emod_smul hS, one_smul]

/-- C25: the result is always in the subgroup when 8N kills the group, and the map is idempotent there. -/
theorem C25_lands_in_subgroup (L : Lawful c G) (h8 : Int.gcd 8 c.N = 1) (hbig : 8 < c.N)
    (hexp : ∀ g : G, (8 * c.N) • g = 0) (p r : ECPoint) (hp : c.On p)
    (h : ECPoint.eightInvEight c p = .ok (some r)) :
    c.N • L.val r = 0 ∧ ECPoint.eightInvEight c r = .ok (some r) := by
  obtain ⟨inv, hinv, -, -, h'⟩ := L.eightInvEight_pt hp h8
  rw [h'] at h
  simp only [Res.ok.injEq, Option.some.injEq] at h
  subst h
  have hN : c.N • (inv • (8 % c.N) • L.val p) = 0 := by
    rw [Int.emod_eq_of_lt (by omega) hbig, smul_comm c.N, smul_smul c.N 8, mul_comm, hexp, smul_zero]
  rw [L.val_pt]
  refine ⟨hN, ?_⟩
  have := C25_clears_torsion L h8 hbig (L.pt (inv • (8 % c.N) • L.val p)) (L.on_pt _)
    (inv • (8 % c.N) • L.val p) 0 (by rw [L.val_pt, add_zero]) hN (smul_zero _)
  exact this

/-- Non-vacuity: a point with a non-trivial torsion part. -/
example : Int.gcd 8 toyCurve.N = 1 ∧ 8 < toyCurve.N ∧ toyCurve.On ⟨4, 3⟩ ∧
    toyLawful.val ⟨4, 3⟩ = (4, 0) + (0, 3) ∧ toyCurve.N • ((4, 0) : ZMod 11 × ZMod 8) = 0 ∧
    (8 : Int) • ((0, 3) : ZMod 11 × ZMod 8) = 0 ∧ (∀ g : ZMod 11 × ZMod 8, (8 * toyCurve.N) • g = 0) ∧
    ECPoint.eightInvEight toyCurve ⟨4, 3⟩ = .ok (some ⟨4, 0⟩) := by
  refine ⟨by decide, by decide, by decide, by decide, by decide, by decide, ?_, by decide⟩
  intro g
  have : (8 * toyCurve.N : Int) = 88 := by decide
  rw [this]
  ext
  · have : ∀ a : ZMod 11, (88 : Int) • a = 0 := by decide +kernel
    exact this _
  · have : ∀ a : ZMod 8, (88 : Int) • a = 0 := by decide +kernel
    exact this _

/-! ## C26 -/

/-- A proper point as an element of a Go slice. -/
def raw (p : ECPoint) : RawPoint := some (some p.x, some p.y)

theorem unflatten_flat (c : Curve) (ps : List ECPoint) (h : ∀ p ∈ ps, c.On p) :
    unflattenLoop c false (ps.flatMap fun p => [some p.x, some p.y]) = some (ps.map raw) := by
  induction ps with
  | nil => rfl
  | cons p t ih =>
    have h1 : c.isOnCurve p.x p.y = true := h p (by simp)
    simp [unflattenLoop, h1, ih (fun q hq => h q (by simp [hq])), raw]

theorem unflatten_flat_nocheck (c : Curve) (ps : List ECPoint) :
    unflattenLoop c true (ps.flatMap fun p => [some p.x, some p.y]) = some (ps.map raw) := by
  induction ps with
  | nil => rfl
  | cons p t ih => simp [unflattenLoop, ih, raw]

theorem noNil_raw (ps : List ECPoint) : noNilCoords (ps.map raw) = true := by
  induction ps with
  | nil => rfl
  | cons p t ih => simpa [noNilCoords, raw] using ih

/-- C26: flattening any list of points and unflattening it gives the list back; with the curve check
this needs (and is only granted to) on-curve points. -/
theorem C26_round_trip (c : Curve) (ps : List ECPoint) :
    ∃ flat, FlattenECPoints (some (ps.map raw)) = some flat ∧ flat.length = 2 * ps.length ∧
      UnFlattenECPoints c (some flat) true = some (ps.map raw) ∧
      ((∀ p ∈ ps, c.On p) → UnFlattenECPoints c (some flat) false = some (ps.map raw)) := by
  have hf : flattenLoop (ps.map raw) = some (ps.flatMap fun p => [some p.x, some p.y]) := by
    induction ps with
    | nil => rfl
    | cons p t ih => simp [flattenLoop, raw] at ih ⊢; simp [ih]
  have hlen : (ps.flatMap fun p => [some p.x, some p.y]).length = 2 * ps.length := by
    induction ps with
    | nil => rfl
    | cons p t ih => simp at ih ⊢; omega
  refine ⟨_, hf, hlen, ?_, ?_⟩
  · unfold UnFlattenECPoints
    simp only [hlen, unflatten_flat_nocheck]
    rw [if_neg (by omega), if_pos (noNil_raw ps)]
  · intro h
    unfold UnFlattenECPoints
    simp only [hlen, unflatten_flat c ps h]
    rw [if_neg (by omega), if_pos (noNil_raw ps)]

theorem unflattenLoop_ok (c : Curve) : ∀ (l : List (Option Int)) (ps : List RawPoint), l.length % 2 = 0 →
    unflattenLoop c false l = some ps →
    ∃ qs : List ECPoint, ps = qs.map raw ∧ (∀ q ∈ qs, c.On q) ∧ l = qs.flatMap fun p => [some p.x, some p.y]
  | [], ps, _, h => ⟨[], by simpa [unflattenLoop] using h.symm, by simp, rfl⟩
  | [x], ps, hl, h => by simp at hl
  | x :: y :: t, ps, hl, h => by
    unfold unflattenLoop at h
    rw [if_neg (by simp)] at h
    cases x with
    | none => simp at h
    | some a =>
      cases y with
      | none => simp at h
      | some b =>
        simp only at h
        split at h
        · next hon =>
          cases hr : unflattenLoop c false t with
          | none => simp [hr] at h
          | some rs =>
            obtain ⟨qs, e1, e2, e3⟩ := unflattenLoop_ok c t rs (by simp at hl; omega) hr
            simp only [hr, Option.map_some, Option.some.injEq] at h
            refine ⟨⟨a, b⟩ :: qs, ?_, ?_, ?_⟩
            · rw [← h, e1]; rfl
            · intro q hq
              rcases List.mem_cons.mp hq with rfl | hq
              · exact hon
              · exact e2 q hq
            · simp [e3]
        · simp at h

/-- C26: unflattening rejects nil and odd-length input, and whenever it succeeds with the curve check all
resulting points are on the curve and flatten back to the input. -/
theorem C26_unflatten_sound (c : Curve) (ins : Option (List (Option Int))) (ps : List RawPoint)
    (h : UnFlattenECPoints c ins false = some ps) :
    ∃ (l : List (Option Int)) (qs : List ECPoint), ins = some l ∧ l.length % 2 = 0 ∧ ps = qs.map raw ∧ (∀ q ∈ qs, c.On q) ∧
      FlattenECPoints (some ps) = some l := by
  unfold UnFlattenECPoints at h
  cases ins with
  | none => simp at h
  | some l =>
    simp only at h
    split at h
    · simp at h
    · next hl =>
      have hl' : l.length % 2 = 0 := by omega
      cases hu : unflattenLoop c false l with
      | none => simp [hu] at h
      | some rs =>
        simp only [hu] at h
        split at h
        · simp only [Option.some.injEq] at h
          subst h
          obtain ⟨qs, e1, e2, e3⟩ := unflattenLoop_ok c l rs hl' hu
          refine ⟨l, qs, rfl, hl', e1, e2, ?_⟩
          obtain ⟨flat, f1, -⟩ := C26_round_trip c qs
          rw [e1, f1, e3]
          have hf : flattenLoop (qs.map raw) = some (qs.flatMap fun p => [some p.x, some p.y]) := by
            clear f1 e1 e2 e3 hu
            induction qs with
            | nil => rfl
            | cons p t ih => simp [flattenLoop, raw] at ih ⊢; simp [ih]
          rw [FlattenECPoints] at f1
          rw [← f1, hf]
        · simp at h

example : FlattenECPoints (some [raw ⟨3, 5⟩, raw ⟨1, 0⟩]) = some [some 3, some 5, some 1, some 0] ∧
    UnFlattenECPoints toyCurve (some [some 3, some 5, some 1, some 0]) false = some [raw ⟨3, 5⟩, raw ⟨1, 0⟩] ∧
    UnFlattenECPoints toyCurve (some [some 3, some 5, some 1]) false = none ∧
    UnFlattenECPoints toyCurve (some [some 3, some 9]) false = none := by decide

/-! ## C27 -/

theorem bigGob_round_trip (z : Int) : bigGobDecode (bigGobEncode z) = some z := by
  unfold bigGobEncode
  by_cases h : z < 0
  · rw [if_pos h, bigGobDecode, if_neg (by decide), if_pos (by decide), beNat_intBytes]
    congr 1; omega
  · rw [if_neg h, bigGobDecode, if_neg (by decide), if_neg (by decide), beNat_intBytes]
    congr 1; omega

theorem readChunk_cons (b : Bytes) (rest : Bytes) (hb : b ≠ []) (hl : b.length < 2 ^ 32) :
    readChunk (le32 b.length ++ b ++ rest) = some (b, rest) := by
  have hlen : (le32 b.length).length = 4 := by simp [le32]
  have hpos : 0 < b.length := List.length_pos_iff.mpr hb
  have ht : (le32 b.length ++ b ++ rest).take 4 = le32 b.length := by
    rw [List.append_assoc, List.take_append_of_le_length (by omega), List.take_of_length_le (by omega)]
  have hd : (le32 b.length ++ b ++ rest).drop 4 = b ++ rest := by
    rw [List.append_assoc, List.drop_append_of_le_length (by omega), List.drop_of_length_le (by omega)]; rfl
  have hv : leNat (le32 b.length) = b.length := by
    rw [le32, leNat_leFixed, Nat.mod_eq_of_lt]; simpa using hl
  unfold readChunk
  rw [ht, hd, hv]
  rw [if_neg (by simp only [List.length_append]; omega)]
  simp only
  rw [if_neg (by simp only [List.length_append]; omega), if_neg (by simp)]
  simp

/-- C27: gob encoding of an on-curve point (coordinates shorter than 4 GiB) decodes to the same point,
provided the global curve is the point's curve. -/
theorem C27_gob_round_trip (c : Curve) (p : ECPoint) (hp : c.On p)
    (hx : (intBytes p.x).length + 1 < 2 ^ 32) (hy : (intBytes p.y).length + 1 < 2 ^ 32) :
    gobDecode c (gobEncode p) = some p := by
  unfold gobEncode gobDecode
  simp only
  rw [readChunk_cons _ _ (by simp [bigGobEncode]) (by simpa [bigGobEncode] using hx)]
  simp only
  have := readChunk_cons (bigGobEncode p.y) [] (by simp [bigGobEncode]) (by simpa [bigGobEncode] using hy)
  rw [List.append_nil] at this
  rw [this]
  simp only [bigGob_round_trip]
  have hp' : c.isOnCurve p.x p.y = true := hp
  rw [if_pos hp']

/-- C27: whatever bytes are decoded, an accepted point is on the (global) curve. -/
theorem C27_gob_decode_on_curve (c : Curve) (buf : Bytes) (p : ECPoint) (h : gobDecode c buf = some p) : c.On p := by
  unfold gobDecode at h
  cases h1 : readChunk buf with
  | none => simp [h1] at h
  | some a =>
    cases h2 : readChunk a.2 with
    | none => simp [h1, h2] at h
    | some b =>
      cases h3 : bigGobDecode a.1 with
      | none => simp [h1, h2, h3] at h
      | some X =>
        cases h4 : bigGobDecode b.1 with
        | none => simp [h1, h2, h3, h4] at h
        | some Y =>
          simp only [h1, h2, h3, h4] at h
          split at h
          · next hon =>
            simp only [Option.some.injEq] at h
            subst h
            exact hon
          · simp at h

/-- C27: JSON round trip, for every iteration order of the registry, if the registry knows the curve and
no two registered curves share a dynamic type. -/
theorem C27_json_round_trip (J : JsonCodec JsonPoint) (env : CurveEnv) (name : String) (rc : RegCurve) (p : ECPoint)
    (hname : 0 < name.length) (hreg : (name, rc) ∈ env.registry)
    (hty : ∀ a ∈ env.registry, ∀ b ∈ env.registry, a.2.ty = b.2.ty → a = b)
    (hkeys : (env.registry.map Prod.fst).Nodup) (hp : rc.curve.On p) :
    ∃ payload, marshalJSON J env rc p = some payload ∧ unmarshalJSON J env payload = some (rc, p) := by
  have h1 : ∀ l : List (String × RegCurve), (name, rc) ∈ l →
      (∀ a ∈ l, ∀ b ∈ l, a.2.ty = b.2.ty → a = b) → getCurveNameLoop rc.ty l = some name := by
    intro l
    induction l with
    | nil => simp
    | cons a t ih =>
      intro hm hu
      obtain ⟨n, e⟩ := a
      unfold getCurveNameLoop
      split
      · next he =>
        have := hu (name, rc) hm (n, e) (by simp) he
        simp only [Prod.mk.injEq] at this
        rw [this.1]
      · next he =>
        rcases List.mem_cons.mp hm with h | h
        · simp only [Prod.mk.injEq] at h
          exact absurd (by rw [h.2]) he
        · exact ih h fun a ha b hb => hu a (by simp [ha]) b (by simp [hb])
  have h2 : ∀ l : List (String × RegCurve), (name, rc) ∈ l → (l.map Prod.fst).Nodup → l.lookup name = some rc := by
    intro l
    induction l with
    | nil => simp
    | cons a t ih =>
      intro hm hn
      obtain ⟨n, e⟩ := a
      simp only [List.map_cons, List.nodup_cons] at hn
      rcases List.mem_cons.mp hm with h | h
      · simp only [Prod.mk.injEq] at h
        simp [List.lookup, h.1, h.2]
      · have hne : name ≠ n := by
          rintro rfl
          exact hn.1 (List.mem_map.mpr ⟨_, h, rfl⟩)
        have : (name == n) = false := by simpa using hne
        simp [List.lookup, this, ih h hn.2]
  refine ⟨J.enc ⟨name, some p.x, some p.y⟩, ?_, ?_⟩
  · unfold marshalJSON getCurveName
    rw [h1 _ hreg hty]
  · unfold unmarshalJSON getCurveByName
    simp only [J.dec_enc, h2 _ hreg hkeys, hname, if_true]
    have : rc.curve.isOnCurve p.x p.y = true := hp
    rw [if_pos this]

/-- C27: a payload naming an unknown curve is rejected, and an accepted point is on the returned curve. -/
theorem C27_json_checked (J : JsonCodec JsonPoint) (env : CurveEnv) (payload : Bytes) :
    (∀ v, J.dec payload = some v → 0 < v.curve.length → getCurveByName env v.curve = none →
      unmarshalJSON J env payload = none) ∧
    (∀ rc p, unmarshalJSON J env payload = some (rc, p) → rc.curve.On p) := by
  constructor
  · intro v h1 h2 h3
    unfold unmarshalJSON
    simp [h1, h2, h3]
  · intro rc p h
    unfold unmarshalJSON at h
    cases hd : J.dec payload with
    | none => simp [hd] at h
    | some v =>
      simp only [hd] at h
      cases hr : (if v.curve.length > 0 then getCurveByName env v.curve else some env.ec) with
      | none => simp [hr] at h
      | some rc' =>
        simp only [hr] at h
        cases hx : v.x with
        | none => simp [hx] at h
        | some x =>
          cases hy : v.y with
          | none => simp [hx, hy] at h
          | some y =>
            simp only [hx, hy] at h
            split at h
            · next hon =>
              simp only [Option.some.injEq, Prod.mk.injEq] at h
              obtain ⟨rfl, rfl⟩ := h
              exact hon
            · simp at h

/-- Finding: registering a second name for a curve of the same dynamic type makes the encoded name, and
so the curve a peer will decode with, depend on the map iteration order. -/
theorem C27_ambiguous_type : ∃ (r1 r2 : RegCurve) (l1 l2 : List (String × RegCurve)), List.Perm l1 l2 ∧
    getCurveName ⟨r1, l1⟩ r1 ≠ getCurveName ⟨r1, l2⟩ r1 ∧ r1.ty = r2.ty :=
  ⟨⟨0, toyCurve⟩, ⟨0, toyCurve⟩, [("a", ⟨0, toyCurve⟩), ("b", ⟨0, toyCurve⟩)],
    [("b", ⟨0, toyCurve⟩), ("a", ⟨0, toyCurve⟩)], List.Perm.swap _ _ _, by decide, rfl⟩

example : toyCurve.On ⟨3, 5⟩ ∧ gobEncode ⟨3, 5⟩ = [2, 0, 0, 0, 2, 3, 2, 0, 0, 0, 2, 5] ∧
    gobDecode toyCurve [2, 0, 0, 0, 2, 3, 2, 0, 0, 0, 2, 5] = some ⟨3, 5⟩ := by
  refine ⟨by decide, by decide, by decide⟩

end Tss.ECPoint
