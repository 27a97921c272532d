import Verif.Model.PartyID
/-
Model of /repo/tss/party.go (BaseParty, BaseStart, BaseUpdate): any number of calls on one party, interleaved in every way,
with the mutex. The rounds, the storing of messages, the prepare functions are whatever an implementation of the `Party` and
`Round` interfaces does: state transformers on the data `σ` (which includes the state of the round objects) that may return,
return an error, or panic. Simplifications: they do not touch the party's mutex or its current round (they have no access to
it: `setRound`, `advance`, `lock` are private); `Params()` is not nil; logging is omitted.
-/
namespace Tss.Party
open Tss

/-- How a call into the implementation ends. -/
inductive Out (σ ε α : Type) where
  | ok (a : α) (d : σ)
  | err (e : ε) (d : σ)
  | panic (d : σ)

/-- party.go:17-39 `Party`, round.go:9-19 `Round`: the implementation. `ρ` are the (non-nil) rounds. -/
structure Env (σ ε ρ μ : Type) where
  /-- party.go:117 `p.PartyID() == nil || !p.PartyID().ValidateBasic()` is false -/
  idOk : Bool
  first : σ → Option ρ × σ
  /-- the message passes `ValidateMessage` -/
  valid : μ → Bool
  store : μ → σ → Out σ ε Bool
  update : ρ → σ → Out σ ε Bool
  can : ρ → σ → Bool
  next : ρ → σ → Option ρ × σ
  start : ρ → σ → Out σ ε Unit
  /-- `Round.WaitingFor`; none: it panics -/
  waiting : ρ → σ → Option (List Nat)

/-- What the errors made in party.go say. -/
inductive Cause where
  | invalidID | unexpectedState | alreadySet | tooManyPrepare | invalidMessage
  deriving DecidableEq

/-- An error: one made in party.go, with the round it is wrapped with (party.go:60-65), or one from the implementation. -/
inductive Err (ε ρ : Type) where
  | own (c : Cause) (r : Option ρ)
  | given (e : ε)

/-- The calls on a party. -/
inductive Call (σ ε ρ μ : Type) where
  | start (prepare : List (Option ρ → σ → Out σ ε Unit))
  | update (m : μ)
  | waitingFor

/-- What calls return. -/
inductive Ret (ε ρ : Type) where
  | start (e : Option (Err ε ρ))
  | update (ok : Bool) (e : Option (Err ε ρ))
  | waitingFor (ids : List Nat)

/-- The party: its current round (`BaseParty.rnd`) and the data. -/
structure PS (σ ρ : Type) where
  rnd : Option ρ
  data : σ

/-- Places in the code that run with the mutex held. -/
inductive Loc where
  | sCheck | sPrepare | sRun
  | uStore | uUpdate | uCan | uNext | uStart
  | wRead
  deriving DecidableEq

/-- What happens after such a place: go on, unlock and return, unlock and run BaseUpdate again, or panic. -/
inductive After (ε ρ : Type) where
  | go (l : Loc)
  | ret (r : Ret ε ρ)
  | again
  | crash

variable {σ ε ρ μ : Type}

/-- party.go:60-65 `WrapError` -/
def wrapError (ps : PS σ ρ) (c : Cause) : Err ε ρ := .own c ps.rnd

/-- party.go:88-94 `setRound` -/
def setRound (ps : PS σ ρ) (r : Option ρ) : Option (Err ε ρ) × PS σ ρ :=
  if ps.rnd.isSome then (some (wrapError ps .alreadySet), ps) else (none, { ps with rnd := r })

/-- party.go:117-130: the checks of BaseStart and the setting of the round. -/
def sCheck (env : Env σ ε ρ μ) (prepare : List (Option ρ → σ → Out σ ε Unit)) (ps : PS σ ρ) : After ε ρ × PS σ ρ :=
  if !env.idOk then (.ret (.start (some (wrapError ps .invalidID))), ps)
  else if ps.rnd.isSome then (.ret (.start (some (wrapError ps .unexpectedState))), ps)
  else
    let (r, d) := env.first ps.data
    match setRound { ps with data := d } r with
    | (some e, ps) => (.ret (.start (some e)), ps)
    | (none, ps) =>
      if 1 < prepare.length then (.ret (.start (some (wrapError ps .tooManyPrepare))), ps)
      else if prepare.length = 1 then (.go .sPrepare, ps)
      else (.go .sRun, ps)

/-- party.go:131-133: the prepare function (it gets the round set before). -/
def sPrepare (prepare : List (Option ρ → σ → Out σ ε Unit)) (ps : PS σ ρ) : After ε ρ × PS σ ρ :=
  match prepare with
  | [] => (.crash, ps)
  | f :: _ =>
    match f ps.rnd ps.data with
    | .ok _ d => (.go .sRun, { ps with data := d })
    | .err e d => (.ret (.start (some (.given e))), { ps with data := d })
    | .panic d => (.crash, { ps with data := d })

/-- party.go:135-139: the first round is started (a nil round panics). -/
def sRun (env : Env σ ε ρ μ) (ps : PS σ ρ) : After ε ρ × PS σ ρ :=
  match ps.rnd with
  | none => (.crash, ps)
  | some r =>
    match env.start r ps.data with
    | .ok _ d => (.ret (.start none), { ps with data := d })
    | .err e d => (.ret (.start (some (.given e))), { ps with data := d })
    | .panic d => (.crash, { ps with data := d })

/-- party.go:154-160 -/
def uStore (env : Env σ ε ρ μ) (m : μ) (ps : PS σ ρ) : After ε ρ × PS σ ρ :=
  match env.store m ps.data with
  | .ok true d => (.go .uUpdate, { ps with data := d })
  | .ok false d => (.ret (.update false none), { ps with data := d })
  | .err e d => (.ret (.update false (some (.given e))), { ps with data := d })
  | .panic d => (.crash, { ps with data := d })

/-- party.go:161-165, 182 -/
def uUpdate (env : Env σ ε ρ μ) (ps : PS σ ρ) : After ε ρ × PS σ ρ :=
  match ps.rnd with
  | none => (.ret (.update true none), ps)
  | some r =>
    match env.update r ps.data with
    | .ok _ d => (.go .uCan, { ps with data := d })
    | .err e d => (.ret (.update false (some (.given e))), { ps with data := d })
    | .panic d => (.crash, { ps with data := d })

/-- party.go:166, 180 -/
def uCan (env : Env σ ε ρ μ) (ps : PS σ ρ) : After ε ρ × PS σ ρ :=
  match ps.rnd with
  | none => (.crash, ps)
  | some r => if env.can r ps.data then (.go .uNext, ps) else (.ret (.update true none), ps)

/-- party.go:100-102 `advance`; 167, 173-178 -/
def uNext (env : Env σ ε ρ μ) (ps : PS σ ρ) : After ε ρ × PS σ ρ :=
  match ps.rnd with
  | none => (.crash, ps)
  | some r =>
    let (r', d) := env.next r ps.data
    (if r'.isSome then .go .uStart else .again, ⟨r', d⟩)

/-- party.go:168-172, 177-178 -/
def uStart (env : Env σ ε ρ μ) (ps : PS σ ρ) : After ε ρ × PS σ ρ :=
  match ps.rnd with
  | none => (.crash, ps)
  | some r =>
    match env.start r ps.data with
    | .ok _ d => (.again, { ps with data := d })
    | .err e d => (.ret (.update false (some (.given e))), { ps with data := d })
    | .panic d => (.crash, { ps with data := d })

/-- party.go:54-57 -/
def wRead (env : Env σ ε ρ μ) (ps : PS σ ρ) : After ε ρ × PS σ ρ :=
  match ps.rnd with
  | none => (.ret (.waitingFor []), ps)
  | some r =>
    match env.waiting r ps.data with
    | some l => (.ret (.waitingFor l), ps)
    | none => (.crash, ps)

/-- One step of a call that holds the mutex. -/
def micro (env : Env σ ε ρ μ) (c : Call σ ε ρ μ) (l : Loc) (ps : PS σ ρ) : After ε ρ × PS σ ρ :=
  match c, l with
  | .start pr, .sCheck => sCheck env pr ps
  | .start pr, .sPrepare => sPrepare pr ps
  | .start _, .sRun => sRun env ps
  | .update m, .uStore => uStore env m ps
  | .update _, .uUpdate => uUpdate env ps
  | .update _, .uCan => uCan env ps
  | .update _, .uNext => uNext env ps
  | .update _, .uStart => uStart env ps
  | .waitingFor, .wRead => wRead env ps
  | _, _ => (.crash, ps)

/-- Where a call is. -/
inductive Pc (ε ρ : Type) where
  /-- BaseUpdate before `ValidateMessage` (party.go:145) -/
  | validate
  /-- before `lock` -/
  | acquire
  | body (l : Loc)
  | returned (r : Ret ε ρ)
  | crashed

/-- Where a call begins: party.go:115, 145, 52. -/
def entry : Call σ ε ρ μ → Pc ε ρ
  | .update _ => .validate
  | _ => .acquire

/-- The first place after taking the mutex. -/
def firstLoc : Call σ ε ρ μ → Loc
  | .start _ => .sCheck
  | .update _ => .uStore
  | .waitingFor => .wRead

/-- Is the mutex released when the call panics? BaseStart and WaitingFor defer the unlock (party.go:53, 116), BaseUpdate does not. -/
def defers : Call σ ε ρ μ → Bool
  | .update _ => false
  | _ => true

/-- The whole state: the party, the mutex (locked or not), and the calls made so far. -/
structure St (σ ε ρ μ : Type) where
  ps : PS σ ρ
  locked : Bool
  thr : Nat → Option (Call σ ε ρ μ × Pc ε ρ)

/-- A call moves to another place. -/
def St.put (s : St σ ε ρ μ) (i : Nat) (c : Call σ ε ρ μ) (pc : Pc ε ρ) : Nat → Option (Call σ ε ρ μ × Pc ε ρ) :=
  fun j => if j = i then some (c, pc) else s.thr j

/-- party.go:105-110, 149-152, 177: what a call does after one place of its critical section. -/
def settle (s : St σ ε ρ μ) (i : Nat) (c : Call σ ε ρ μ) : After ε ρ × PS σ ρ → St σ ε ρ μ
  | (.go l, ps) => ⟨ps, s.locked, s.put i c (.body l)⟩
  | (.ret r, ps) => ⟨ps, false, s.put i c (.returned r)⟩
  | (.again, ps) => ⟨ps, false, s.put i c .validate⟩
  | (.crash, ps) => ⟨ps, if defers c then false else s.locked, s.put i c .crashed⟩

/-- A new party (`new(tss.BaseParty)`): no round, mutex free, no calls. -/
def init (d : σ) : St σ ε ρ μ := ⟨⟨none, d⟩, false, fun _ => none⟩

/-- One step of one call. -/
inductive Step (env : Env σ ε ρ μ) : St σ ε ρ μ → St σ ε ρ μ → Prop
  /-- somebody makes a call -/
  | call {s i} (c : Call σ ε ρ μ) : s.thr i = none → Step env s { s with thr := s.put i c (entry c) }
  /-- party.go:145-147: the message is good -/
  | good {s i m} : s.thr i = some (.update m, .validate) → env.valid m = true →
      Step env s { s with thr := s.put i (.update m) .acquire }
  /-- party.go:145-147: the message is bad -/
  | bad {s i m} : s.thr i = some (.update m, .validate) → env.valid m = false →
      Step env s { s with thr := s.put i (.update m) (.returned (.update false (some (wrapError s.ps .invalidMessage)))) }
  /-- party.go:52, 115, 153 -/
  | acquire {s i c} : s.thr i = some (c, .acquire) → s.locked = false →
      Step env s { s with locked := true, thr := s.put i c (.body (firstLoc c)) }
  /-- the code between `lock` and `unlock` -/
  | body {s i c l} : s.thr i = some (c, .body l) → Step env s (settle s i c (micro env c l s.ps))

/-- Any number of steps. -/
inductive Run (env : Env σ ε ρ μ) : St σ ε ρ μ → St σ ε ρ μ → Prop
  | refl {s} : Run env s s
  | tail {s t u} : Run env s t → Step env t u → Run env s u

/-! ### Messages -/

/-- The parts of a message that `ValidateMessage` looks at. -/
structure Msg where
  isNil : Bool
  contentNil : Bool
  sender : Option PartyID
  basic : Bool

/-- party.go:68-79 `BaseParty.ValidateMessage`: accepted, or refused because the message or its content is nil, because of its
sender, or because of its content (then the sender is named as culprit). -/
def ValidateMessage (m : Msg) : Except (String × Option PartyID) Unit :=
  if m.isNil || m.contentNil then .error ("received nil msg", none)
  else if !PartyID.ValidateBasic m.sender then .error ("received msg with an invalid sender", none)
  else if !m.basic then .error ("message failed ValidateBasic", m.sender)
  else .ok ()

end Tss.Party
