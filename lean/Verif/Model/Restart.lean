import Verif.Model.OnsignOps
/-
The process ends (a crash, an unrecovered panic in or between calls, a kill) and is started again. All state of the two packages is in the
maps `Parties` (eddsacmp/keygen/local_party.go:67) and `SignParties` (eddsacmp/onsign/local_party.go:77), which are empty at the start of
the process; nothing is written anywhere. So whatever a call has done when the process ends inside it, the state afterwards is the
empty one.
-/
namespace Tss.World
open Tss

/-- What happens to the process: a call, or its end and new start. -/
inductive Event where
  | call (op : Op)
  | restart

/-- eddsacmp/keygen/local_party.go:67, eddsacmp/onsign/local_party.go:77: both maps are empty. -/
def World.empty : World := ⟨fun _ => none, fun _ => none⟩

/-- One event. -/
def Event.run (e : Env) (w : World) : Event → World
  | .call op => (op.run e w).2
  | .restart => World.empty

/-- A history of events from the first start. -/
def runEvents (e : Env) (evs : List Event) : World := evs.foldl (Event.run e) World.empty

end Tss.World
