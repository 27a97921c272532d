import Verif.Model.EC
/-
The curve registry and the global curve of /repo/tss/curve.go, as they are used over time.  The two curves of the start are parameters:
`s` for `s256k1.S256()` and `d` for `edwards.Edwards()`.
-/
namespace Tss.CurveReg
open Tss ECPoint

/-- tss/curve.go:30-37 `init`: the default curve is secp256k1; both curves are registered. -/
def initial (s d : RegCurve) : CurveEnv := ⟨s, [("secp256k1", s), ("ed25519", d)]⟩

/-- tss/curve.go:72-77 `SetCurve`: a nil curve (none) panics, before anything is changed. -/
def SetCurve (env : CurveEnv) (c : Option RegCurve) : Res Unit Unit × CurveEnv :=
  match c with
  | none => (.panic, env)
  | some c => (.ok (), { env with ec := c })

/-- tss/curve.go:66-68 `EC`. -/
def EC (env : CurveEnv) : RegCurve := env.ec

/-- The calls that change the registry or the global curve. -/
inductive Op where
  | register (name : String) (c : RegCurve)
  | set (c : Option RegCurve)

/-- One call. -/
def Op.run (env : CurveEnv) : Op → CurveEnv
  | .register n c => registerCurve env n c
  | .set c => (SetCurve env c).2

/-- A history of calls from the start of the process. -/
def runAll (s d : RegCurve) (ops : List Op) : CurveEnv := ops.foldl Op.run (initial s d)

end Tss.CurveReg
