import Verif.Model.Musig2
/-
Model of /repo/package/github.com/btcsuite/btcd/btcec/v2/schnorr/musig2/context.go: contexts and signing sessions.
A world is one context with the sessions made from it. After a panic (recovered by the caller) the state is what had been written
before it. Not modelled: concurrent calls (the code has no locks), nil arguments, and callers that go on changing the slice of keys they
passed in.
-/
namespace Tss.Musig2
open Tss Tss.Bip340
open Tss.Secp (E p ord G pt)

/-- The errors of context.go:12-52, with those passed through. -/
inductive CErr where
  | signersNotSpecified | signerNotInKeySet | alreadyHaveAllNonces | notEnoughSigners | alreadyHaveAllSigners | alreadyHaveAllSigs
  | signingContextReuse | finalSigInvalid | combinedNonceUnavailable | taprootInternalKeyUnavailable | noEarlyNonce
  | pubKey (e : PErr) | tweak (e : TErr) | rand | nonce (e : PErr) | sign (e : MErr)
deriving DecidableEq

/-- The pair of nonces, nonces.go:46-54. -/
structure Nonces where
  pub : Bytes
  sec : Bytes

/-- context.go:101-129 `contextOptions` after all options were applied (138-193). WithKnownSigners also sets the number of signers. -/
structure CtxOpts where
  tweaks : List Tweak
  taproot : Option Bytes
  bip86 : Bool
  keySet : Option (List Pt)
  numSigners : Int
  earlyNonce : Bool

/-- context.go:66-93 `Context`. -/
structure Ctx where
  d : Sc
  pubKey : Pt
  sort : Bool
  tweaks : List Tweak
  taproot : Option Bytes
  bip86 : Bool
  keySet : List Pt
  numSigners : Int
  combined : Option Agg
  early : Option Nonces

/-- context.go:287-300, 567-580: the tweak option of the context. -/
def Ctx.tweakOpt (c : Ctx) : TweakOpt :=
  if c.bip86 then .bip86
  else match c.taproot with
    | some r => .taproot r
    | none => .plain c.tweaks

/-- context.go:261-311 `combineSignerKeys`; keyHashFingerprint sorts the key set in place. -/
noncomputable def combineSignerKeys (th : TH) (c : Ctx) : Ctx × Res CErr Unit :=
  if c.pubKey ∉ c.keySet then (c, .err .signerNotInKeySet)
  else
    let c := { c with keySet := maybeSort c.sort c.keySet }
    match aggregateKeys th c.keySet c.sort c.tweakOpt with
    | .ok ag => ({ c with combined := some ag }, .ok ())
    | .err e => ({ c with combined := none }, .err (.tweak e))
    | .panic => (c, .panic)

/-- `GenNonces` (nonces.go:274-324) as a pair of nonces; `rand` is what the reader gave, `none` when it failed. -/
def genPair (th : TH) (rand : Option Bytes) (o : GenOpts) : Option Nonces :=
  (genNoncesFrom th rand o).map fun r => ⟨r.1, r.2⟩

/-- context.go:200-257 `NewContext`. -/
noncomputable def newContext (th : TH) (d : Sc) (sort : Bool) (o : CtxOpts) (rand : Option Bytes) : Res CErr Ctx :=
  match parseXOnly (serializePubKey (mulG d)) with
  | .error e => .err (.pubKey e)
  | .ok pubKey =>
    let c : Ctx := ⟨d, pubKey, sort, o.tweaks, o.taproot, o.bip86, [], o.numSigners, none, none⟩
    match o.keySet with
    | some ks => match combineSignerKeys th { c with keySet := ks } with
      | (c, .ok ()) => .ok c
      | (_, .err e) => .err e
      | (_, .panic) => .panic
    | none =>
      if o.numSigners = 0 then .err .signersNotSpecified
      else if o.numSigners < 0 then .panic
      else
        let c := { c with keySet := [pubKey] }
        if o.earlyNonce then match genPair th rand ⟨[], [], [], []⟩ with
          | none => .err .rand
          | some n => .ok { c with early := some n }
        else .ok c

/-- context.go:314-320 `EarlySessionNonce`. -/
def Ctx.earlySessionNonce (c : Ctx) : Except CErr Nonces := match c.early with
  | none => .error .noEarlyNonce
  | some n => .ok n

/-- `len(keySet) == numSigners`. -/
def Ctx.full (c : Ctx) : Bool := (c.keySet.length : Int) == c.numSigners

/-- context.go:331-349 `RegisterSigner`. -/
noncomputable def registerSigner (th : TH) (c : Ctx) (pub : Pt) : Ctx × Res CErr Bool :=
  if c.full then (c, .err .alreadyHaveAllSigners)
  else
    let c := { c with keySet := c.keySet ++ [pub] }
    if c.full then match combineSignerKeys th c with
      | (c, .ok ()) => (c, .ok true)
      | (c, .err e) => (c, .err e)
      | (c, .panic) => (c, .panic)
    else (c, .ok false)

/-- context.go:358-364 `CombinedKey`. -/
def Ctx.combinedKey (c : Ctx) : Except CErr Pt := match c.combined with
  | none => .error .notEnoughSigners
  | some ag => .ok ag.final

/-- context.go:386-399 `TaprootInternalKey`. -/
def Ctx.taprootInternalKey (c : Ctx) : Except CErr Pt := match c.combined with
  | none => .error .notEnoughSigners
  | some ag => if c.taproot.isNone && !c.bip86 then .error .taprootInternalKeyUnavailable else .ok ag.pre

/-- context.go:432-448 `Session`. -/
structure Sess where
  localNonces : Option Nonces
  pubNonces : List Bytes
  combinedNonce : Option Bytes
  msg : Bytes
  ourSig : Option PSig
  sigs : List Sc
  finalSig : Option Sig

/-- context.go:451-507 `NewSession`; `external` is the option WithPreGeneratedNonce. -/
noncomputable def newSession (th : TH) (c : Ctx) (external : Option Nonces) (rand : Option Bytes) : Ctx × Res CErr Sess :=
  let mk (n : Nonces) : Sess := ⟨some n, [n.pub], none, List.replicate 32 0, none, [], none⟩
  if !c.full then (c, .err .notEnoughSigners)
  else match c.early with
    | some n => ({ c with early := none }, .ok (mk n))
    | none => match external with
      | some n => (c, .ok (mk n))
      | none => match c.combined with
        | none => (c, .panic)
        | some ag => match genPair th rand ⟨putBytes c.d.val, serializePubKey ag.final, [], []⟩ with
          | none => (c, .err .rand)
          | some n => (c, .ok (mk n))

/-- context.go:512-514 `PublicNonce`. -/
def Sess.publicNonce (s : Sess) : Res CErr Bytes := match s.localNonces with
  | none => .panic
  | some n => .ok n.pub

/-- context.go:525-550 `RegisterPubNonce`. -/
noncomputable def registerPubNonce (c : Ctx) (s : Sess) (nonce : Bytes) : Sess × Res CErr Bool :=
  if (s.pubNonces.length : Int) = c.numSigners then (s, .err .alreadyHaveAllNonces)
  else
    let s := { s with pubNonces := s.pubNonces ++ [nonce] }
    if (s.pubNonces.length : Int) = c.numSigners then
      match aggregateNonces s.pubNonces with
      | .error e => (s, .err (.nonce e))
      | .ok cn => ({ s with combinedNonce := some cn }, .ok true)
    else (s, .ok false)

/-- context.go:567-580: the caller's options with the tweaks of the context put on top. -/
def Ctx.signOpts (c : Ctx) (o : SignOpts) : SignOpts :=
  if c.bip86 then { o with bip86 := true }
  else match c.taproot with
    | some r => { o with taproot := some r }
    | none => if c.tweaks.length ≠ 0 then { o with tweaks := c.tweaks } else o

/-- context.go:555-602 `Session.Sign`; with WithSortedKeys the key set of the context is sorted in place (sign.go:205). -/
noncomputable def sessSign (th : TH) (c : Ctx) (s : Sess) (msg : Bytes) (o : SignOpts) : Ctx × Sess × Res CErr PSig :=
  match s.localNonces, s.combinedNonce with
  | none, _ => (c, s, .err .signingContextReuse)
  | some _, none => (c, s, .err .combinedNonceUnavailable)
  | some n, some cn =>
    let r := Musig2.sign th n.sec c.d cn c.keySet msg (c.signOpts o)
    let c := { c with keySet := maybeSort o.sort c.keySet }
    match r with
    | .panic => (c, s, .panic)
    | .err e => (c, { s with localNonces := none }, .err (.sign e))
    | .ok q => (c, { s with localNonces := none, msg := msg, ourSig := some q, sigs := s.sigs ++ [q.S] }, .ok q)

/-- context.go:629-651: the option given to CombineSigs; it panics when AggregateKeys fails. -/
noncomputable def Ctx.combineOpt (th : TH) (c : Ctx) (msg : Bytes) : Res TErr (Option CombOpts) :=
  if c.bip86 || c.taproot.isSome || c.tweaks.length ≠ 0 then
    match withCombine th msg c.keySet c.sort c.tweakOpt with
    | .ok o => .ok (some o)
    | _ => .panic
  else .ok none

/-- context.go:607-665 `CombineSig`. -/
noncomputable def combineSig (th : TH) (c : Ctx) (s : Sess) (S : Sc) : Sess × Res CErr Bool :=
  if s.sigs.length = c.keySet.length then (s, .err .alreadyHaveAllSigs)
  else
    let s := { s with sigs := s.sigs ++ [S] }
    if s.sigs.length = c.keySet.length then
      match c.combineOpt th s.msg, s.ourSig, c.combined with
      | .ok co, some our, some ag =>
        let g := combineSigs th our.R s.sigs co
        if verify th g s.msg ag.final then ({ s with finalSig := some g }, .ok true) else (s, .err .finalSigInvalid)
      | _, _, _ => (s, .panic)
    else (s, .ok false)

/-- One context and its sessions. -/
structure World where
  ctx : Ctx
  sess : List Sess

/-- A call of the API on the context or on its i-th session. -/
inductive Op where
  | registerSigner (pub : Pt)
  | newSession (external : Option Nonces) (rand : Option Bytes)
  | registerNonce (i : Nat) (nonce : Bytes)
  | sign (i : Nat) (msg : Bytes) (o : SignOpts)
  | combine (i : Nat) (S : Sc)

/-- What a call returns. -/
inductive Out where
  | bool (r : Res CErr Bool)
  | session (r : Res CErr Sess)
  | sig (r : Res CErr PSig)
  | none

/-- The effect and the result of a call (context.go:331, 451, 525, 555, 607). -/
noncomputable def Op.run (th : TH) (w : World) : Op → World × Out
  | .registerSigner pub => let r := Musig2.registerSigner th w.ctx pub; ({ w with ctx := r.1 }, .bool r.2)
  | .newSession ext rand =>
    let r := Musig2.newSession th w.ctx ext rand
    match r.2 with
    | .ok s => (⟨r.1, w.sess ++ [s]⟩, .session r.2)
    | _ => ({ w with ctx := r.1 }, .session r.2)
  | .registerNonce i nonce => match w.sess[i]? with
    | none => (w, .none)
    | some s => let r := registerPubNonce w.ctx s nonce; ({ w with sess := w.sess.set i r.1 }, .bool r.2)
  | .sign i msg o => match w.sess[i]? with
    | none => (w, .none)
    | some s => let r := sessSign th w.ctx s msg o; (⟨r.1, w.sess.set i r.2.1⟩, .sig r.2.2)
  | .combine i S => match w.sess[i]? with
    | none => (w, .none)
    | some s => let r := combineSig th w.ctx s S; ({ w with sess := w.sess.set i r.1 }, .bool r.2)

/-- The world after a history of calls. -/
noncomputable def runAll (th : TH) (w : World) (ops : List Op) : World := ops.foldl (fun w op => (op.run th w).1) w

end Tss.Musig2
