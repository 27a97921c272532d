import Verif.Model.SaveAny
/-
`MarshalJSON` and `UnmarshalJSON` of a single point (crypto/ecpoint.go:227-268) with the JSON text spelled out (Model/Json), as opposed
to the abstract codec of Model/EC.
-/
namespace Tss.SaveJson
open Tss Text

/-- crypto/ecpoint.go:227-240 `MarshalJSON` of a point of one of the two registered curves. -/
def marshalPoint (q : CPoint) : Bytes := (cpointJson (some q)).render

/-- crypto/ecpoint.go:242-268 `UnmarshalJSON`, called on the whole text; `ec` is `tss.EC()`. `json.Unmarshal` gets a pointer to the
pointer `aux` (line 247), so the text `null` sets `aux` to nil and line 250 dereferences it. Errors are not told apart. -/
def unmarshalPoint (ec : CurveId) (b : Bytes) : Res Unit CPoint :=
  match Json.parse b with
  | none => .err ()
  | some .null => .panic
  | some (.obj l) =>
    match l.foldlM readAux ⟨[], none, none⟩ with
    | none => .err ()
    | some a =>
      match (if a.curve = [] then some ec else curveByName a.curve) with
      | none => .err ()
      | some c =>
        match a.x, a.y with
        | some x, some y => if c.curve.isOnCurve x y then .ok ⟨c, ⟨x, y⟩⟩ else .err ()
        | _, _ => .err ()
  | some _ => .err ()

end Tss.SaveJson
