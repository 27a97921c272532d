import Verif.Model.PointJson
import Verif.Props.SaveAny
/-
C27 with the JSON text of a point spelled out.
-/
namespace Tss.SaveJson
open Tss Text RangeProofs

/-- A point without its curve's name, as older versions wrote it: `{"Coords":[x,y]}`. -/
def spec.oldText (x y : Int) : Bytes := (Json.obj [(ascii "Coords", .arr [bigJson (some x), bigJson (some y)])]).render

theorem aux_point (c : CurveId) (p : ECPoint) : [(ascii "Curve", Json.str c.name), (ascii "Coords", .arr [bigJson (some p.x), bigJson (some p.y)])].foldlM
    readAux ⟨[], none, none⟩ = some ⟨c.name, some p.x, some p.y⟩ := by
  have h1 : readAux ⟨[], none, none⟩ (ascii "Curve", .str c.name) = some ⟨c.name, none, none⟩ := by
    unfold readAux; rw [fold_names.1]; rfl
  have h2 : readAux ⟨c.name, none, none⟩ (ascii "Coords", .arr [bigJson (some p.x), bigJson (some p.y)]) =
      some ⟨c.name, some p.x, some p.y⟩ := by
    unfold readAux
    simp only [fold_names.2.1]
    rw [if_neg (by decide), if_pos trivial]
    unfold readCoords
    simp only [readBig_bigJson]
  simp only [List.foldlM_cons, List.foldlM_nil, h1, h2, Option.bind_eq_bind, Option.bind_some, Option.pure_def]

theorem byName_any (ec c : CurveId) : (if c.name = [] then some ec else curveByName c.name) = some c := by cases ec <;> cases c <;> decide

/-- C27, with the text: a point of either registered curve is read back as the same point of the same curve, whatever the global
curve is and whatever white space follows. -/
theorem C27_text_round_trip (ec : CurveId) (q : CPoint) (h : q.c.curve.isOnCurve q.p.x q.p.y = true) (sp : Bytes)
    (hs : ∀ c ∈ sp, Json.isSpace c = true) : unmarshalPoint ec (marshalPoint q ++ sp) = .ok q := by
  unfold unmarshalPoint marshalPoint
  have : Json.parse ((cpointJson (some q)).render ++ sp) = some (cpointJson (some q)) := by
    unfold cpointJson
    exact Json.parse_spaces (ok_cpoint 0 (some q)) (by decide) hs
  rw [this]
  unfold cpointJson
  simp only [aux_point, byName_any]
  rw [if_pos h]

/-- C27, with the text: whatever bytes are given, an accepted point is on its curve, which is the one named in the text or, without a
name, the global curve. -/
theorem C27_text_checked (ec : CurveId) (b : Bytes) (q : CPoint) (h : unmarshalPoint ec b = .ok q) :
    q.c.curve.isOnCurve q.p.x q.p.y = true ∧
    ∃ l a, Json.parse b = some (.obj l) ∧ l.foldlM readAux ⟨[], none, none⟩ = some a ∧ a.x = some q.p.x ∧ a.y = some q.p.y ∧
      ((a.curve = [] ∧ q.c = ec) ∨ a.curve = q.c.name) := by
  unfold unmarshalPoint at h
  split at h
  · cases h
  · cases h
  · next l hl =>
    split at h
    · cases h
    · next a ha =>
      split at h
      · cases h
      · next c hc =>
        split at h
        · next x y hx hy =>
          split at h
          · next hon =>
            cases h
            refine ⟨hon, l, a, hl, ha, hx, hy, ?_⟩
            by_cases he : a.curve = []
            · rw [if_pos he] at hc; cases hc; exact .inl ⟨he, rfl⟩
            · rw [if_neg he] at hc
              unfold curveByName at hc
              split at hc
              · next h1 => cases hc; exact .inr h1
              · split at hc
                · next h1 => cases hc; exact .inr h1
                · cases hc
          · cases h
        · cases h
  · cases h

/-- C27, with the text: a point with coordinates off its curve is written but refused when read. -/
theorem C27_text_off_curve (ec : CurveId) (q : CPoint) (h : q.c.curve.isOnCurve q.p.x q.p.y = false) :
    unmarshalPoint ec (marshalPoint q) = .err () := by
  unfold unmarshalPoint marshalPoint
  rw [Json.parse_render (ok_cpoint 0 (some q)) (by decide)]
  unfold cpointJson
  simp only [aux_point, byName_any, h]
  rfl

/-- C27, with the text: a text naming any other curve is refused, whatever the coordinates. -/
theorem C27_text_unknown_curve (ec : CurveId) (n : Bytes) (x y : Int) (hn : ∀ c ∈ n, c < 128) (hne : n ≠ []) (h1 : n ≠ CurveId.ed25519.name)
    (h2 : n ≠ CurveId.secp256k1.name) :
    unmarshalPoint ec (Json.obj [(ascii "Curve", .str n), (ascii "Coords", .arr [bigJson (some x), bigJson (some y)])]).render = .err () := by
  have hok : Json.Ok 2 (Json.obj [(ascii "Curve", .str n), (ascii "Coords", .arr [bigJson (some x), bigJson (some y)])]) := by
    refine ok_obj _ _ ?_
    simp only [List.forall_mem_cons, List.not_mem_nil, false_imp_iff, implies_true, and_true]
    refine ⟨⟨names_ascii _ (by simp), .str _ _ hn⟩, names_ascii _ (by simp), .arr _ _ ?_⟩
    simp only [List.forall_mem_cons, List.not_mem_nil, false_imp_iff, implies_true, and_true]
    exact ⟨ok_big _ _, ok_big _ _⟩
  unfold unmarshalPoint
  rw [Json.parse_render hok (by decide)]
  have a1 : readAux ⟨[], none, none⟩ (ascii "Curve", .str n) = some ⟨n, none, none⟩ := by
    unfold readAux; rw [fold_names.1]; rfl
  have a2 : readAux ⟨n, none, none⟩ (ascii "Coords", .arr [bigJson (some x), bigJson (some y)]) = some ⟨n, some x, some y⟩ := by
    unfold readAux
    simp only [fold_names.2.1]
    rw [if_neg (by decide), if_pos trivial]
    unfold readCoords
    simp only [readBig_bigJson]
  simp only [List.foldlM_cons, List.foldlM_nil, a1, a2, Option.bind_eq_bind, Option.bind_some, Option.pure_def]
  rw [if_neg hne]
  unfold curveByName
  rw [if_neg (show ¬ n = ascii "ed25519" from h1), if_neg (show ¬ n = ascii "secp256k1" from h2)]

/-- C27, with the text: a text cut short at any byte is an error, not a crash. -/
theorem C27_text_truncated (ec : CurveId) (q : CPoint) (k : Nat) (hk : k < (marshalPoint q).length) :
    unmarshalPoint ec ((marshalPoint q).take k) = .err () := by
  unfold unmarshalPoint
  have : Json.parse ((marshalPoint q).take k) = none := by
    unfold marshalPoint cpointJson at hk ⊢
    refine Json.parse_prefix (ok_cpoint 0 (some q)) (by decide) (x := (marshalPoint q).drop k) (List.take_append_drop k _).symm ?_
    intro h
    have := congrArg List.length h
    rw [List.length_drop, List.length_nil] at this
    exact absurd this (by unfold marshalPoint cpointJson; omega)
  rw [this]

/-- C27, with the text: different points, or points of different curves, have different texts. -/
theorem C27_text_injective (q q' : CPoint) (h : marshalPoint q = marshalPoint q') : q = q' := by
  have h1 := Json.parse_render (ok_cpoint 0 (some q)) (by decide)
  have h2 := Json.parse_render (ok_cpoint 0 (some q')) (by decide)
  unfold marshalPoint at h
  rw [h, h2] at h1
  have hp : cpointJson (some q') = cpointJson (some q) := Option.some.inj h1
  unfold cpointJson at hp
  have hl := Json.obj.inj hp
  have e1 := aux_point q.c q.p
  have e2 := aux_point q'.c q'.p
  rw [hl, e1] at e2
  have e3 := Option.some.inj e2
  obtain ⟨c, x, y⟩ := q
  obtain ⟨c', x', y'⟩ := q'
  injection e3 with n1 n2 n3
  have hc : c = c' := by
    have a := byName_any .ed25519 c
    have b := byName_any .ed25519 c'
    simp only at n1
    rw [n1, b] at a
    exact (Option.some.inj a).symm
  cases n2; cases n3; rw [hc]

/-- C27, with the text: a text without the name of a curve stands for a point of whatever curve is the global one at the time. -/
theorem C27_text_default_curve (ec : CurveId) (x y : Int) :
    unmarshalPoint ec (spec.oldText x y) = if ec.curve.isOnCurve x y = true then .ok ⟨ec, ⟨x, y⟩⟩ else .err () := by
  have hok : Json.Ok 2 (Json.obj [(ascii "Coords", .arr [bigJson (some x), bigJson (some y)])]) := by
    refine ok_obj _ _ ?_
    simp only [List.forall_mem_cons, List.not_mem_nil, false_imp_iff, implies_true, and_true]
    refine ⟨names_ascii _ (by simp), .arr _ _ ?_⟩
    simp only [List.forall_mem_cons, List.not_mem_nil, false_imp_iff, implies_true, and_true]
    exact ⟨ok_big _ _, ok_big _ _⟩
  unfold unmarshalPoint spec.oldText
  rw [Json.parse_render hok (by decide)]
  have a2 : readAux ⟨[], none, none⟩ (ascii "Coords", .arr [bigJson (some x), bigJson (some y)]) = some ⟨[], some x, some y⟩ := by
    unfold readAux
    simp only [fold_names.2.1]
    rw [if_neg (by decide), if_pos trivial]
    unfold readCoords
    simp only [readBig_bigJson]
  simp only [List.foldlM_cons, List.foldlM_nil, a2, Option.bind_eq_bind, Option.bind_some, Option.pure_def, if_pos]

/-- C27, finding: reading a point crashes on exactly the texts that are `null`. -/
theorem C27_text_panics_iff (ec : CurveId) (b : Bytes) : unmarshalPoint ec b = .panic ↔ Json.parse b = some .null := by
  constructor
  · intro h
    unfold unmarshalPoint at h
    split at h
    · cases h
    · assumption
    · split at h
      · cases h
      · split at h
        · cases h
        · split at h
          · split at h <;> cases h
          · cases h
    · cases h
  · intro h; unfold unmarshalPoint; rw [h]

/-- C27, finding: the four bytes `null` crash it. -/
theorem C27_text_null (ec : CurveId) : unmarshalPoint ec (ascii "null") = .panic :=
  (C27_text_panics_iff ec _).mpr (Json.parse_render (.null 0) (by decide))

/-- The hypotheses are met: the base points of the two curves are read back whatever the global curve, and the text without the name
is a point of one curve and an error for the other. -/
theorem C27_text_example :
    unmarshalPoint .ed25519 (marshalPoint ⟨.secp256k1, ⟨Secp.s256.Gx, Secp.s256.Gy⟩⟩) = .ok ⟨.secp256k1, ⟨Secp.s256.Gx, Secp.s256.Gy⟩⟩ ∧
    unmarshalPoint .secp256k1 (marshalPoint ⟨.ed25519, ⟨Ed.Bx, Ed.By⟩⟩) = .ok ⟨.ed25519, ⟨Ed.Bx, Ed.By⟩⟩ ∧
    unmarshalPoint .ed25519 (spec.oldText Ed.Bx Ed.By) = .ok ⟨.ed25519, ⟨Ed.Bx, Ed.By⟩⟩ ∧
    unmarshalPoint .secp256k1 (spec.oldText Ed.Bx Ed.By) = .err () := by
  refine ⟨?_, ?_, ?_, ?_⟩
  · have := C27_text_round_trip .ed25519 ⟨.secp256k1, ⟨Secp.s256.Gx, Secp.s256.Gy⟩⟩ (by show Secp.s256.isOnCurve _ _ = true; decide +kernel) [] (by simp)
    rwa [List.append_nil] at this
  · have := C27_text_round_trip .secp256k1 ⟨.ed25519, ⟨Ed.Bx, Ed.By⟩⟩ (by show Ed.curve.isOnCurve _ _ = true; decide +kernel) [] (by simp)
    rwa [List.append_nil] at this
  · rw [C27_text_default_curve, if_pos]; show Ed.curve.isOnCurve _ _ = true; decide +kernel
  · rw [C27_text_default_curve, if_neg]; show ¬ Secp.s256.isOnCurve _ _ = true; decide +kernel

end Tss.SaveJson
