import Verif.Props.MusigFinal
/-
C99, third part: the ways a context or a session fails or gets stuck, over all histories.
-/
namespace Tss.Musig2
open Tss Tss.Bip340
open Tss.Secp (E p ord G pt point_cases G_ne_zero)

theorem Reach.step {th : TH} {w : World} (h : spec.Reach th w) (op : Op) : spec.Reach th (op.run th w).1 := by
  obtain ⟨w0, ops, h0, rfl⟩ := h
  exact ⟨w0, ops ++ [op], h0, by rw [runAll_append]; rfl⟩

theorem Reach.run {th : TH} {w : World} (h : spec.Reach th w) (ops : List Op) : spec.Reach th (runAll th w ops) := by
  obtain ⟨w0, ops0, h0, rfl⟩ := h
  exact ⟨w0, ops0 ++ ops, h0, (runAll_append ..).symm⟩

theorem step_num (th : TH) (w : World) (op : Op) : (op.run th w).1.ctx.numSigners = w.ctx.numSigners := by
  cases op with
  | registerSigner pub =>
    change (registerSigner th w.ctx pub).1.numSigners = w.ctx.numSigners
    rcases registerSigner_cases th w.ctx pub with ⟨-, he⟩ | ⟨-, -, he⟩ | ⟨-, -, he, -⟩
    · rw [he]
    · rw [he]
    · rw [he, (combineSignerKeys_fields th _).2.1]
  | newSession ext rand =>
    obtain ⟨e, he, -⟩ := newSession_ctx th w.ctx ext rand
    unfold Op.run
    simp only
    rw [he]
    split <;> rfl
  | registerNonce j n => unfold Op.run; simp only; split <;> rfl
  | sign j m o =>
    unfold Op.run
    simp only
    split
    · rfl
    · rename_i s hs
      rcases sessSign_ctx th w.ctx s m o with he | he <;> rw [he]
  | combine j S => unfold Op.run; simp only; split <;> rfl

/-- **C99.** A session for a single signer never signs: Sign always reports a missing combined nonce. -/
theorem C99_single_signer (th : TH) (w : World) (h : spec.Reach th w) (h1 : w.ctx.numSigners = 1) (i : Nat) (s : Sess)
    (hs : w.sess[i]? = some s) (msg : Bytes) (o : SignOpts) :
    ((Op.sign i msg o).run th w).2 = .sig (.err .combinedNonceUnavailable) ∧
    ∀ n, ((Op.registerNonce i n).run th w).2 = .bool (.err .alreadyHaveAllNonces) := by
  have hi := sinv h i s hs
  have hl : (s.pubNonces.length : Int) = 1 ∧ s.combinedNonce = none := by
    have hcn : s.combinedNonce = none := by
      cases hc : s.combinedNonce with
      | none => rfl
      | some cn =>
        obtain ⟨-, a, b⟩ := hi.comb cn hc
        rw [h1] at a
        omega
    refine ⟨?_, hcn⟩
    have : ∀ (i : Nat) (s : Sess), w.sess[i]? = some s → (s.pubNonces.length : Int) = 1 := by
      have hP : w.ctx.numSigners = 1 → ∀ (i : Nat) (s : Sess), w.sess[i]? = some s → (s.pubNonces.length : Int) = 1 := by
        refine reach_induct (P := fun w => w.ctx.numSigners = 1 → ∀ (i : Nat) (s : Sess), w.sess[i]? = some s →
          (s.pubNonces.length : Int) = 1) ?_ ?_ h
        · rintro w ⟨-, -, -, -, -, hs, -⟩ - i s hi
          rw [hs] at hi; cases hi
        · intro w op ih hn i s' hs'
          rw [step_num] at hn
          cases hold : w.sess[i]? with
          | none =>
            obtain ⟨ext, rand, rfl, hok, -⟩ := sess_new th w op i s' hs' hold
            obtain ⟨e, he, hs⟩ := newSession_ctx th w.ctx ext rand
            obtain ⟨-, n, rfl⟩ := hs s' hok
            rfl
          | some s =>
            have hlen := ih hn i s hold
            obtain ⟨s'', e1, e2⟩ := sess_step th w op i s hold
            rw [hs'] at e1
            injection e1 with e1
            subst e1
            rcases e2 with rfl | ⟨n, -, rfl⟩ | ⟨m, o, -, rfl⟩ | ⟨S, -, rfl⟩
            · exact hlen
            · unfold registerPubNonce
              rw [if_pos (by rw [hlen, hn])]
              exact hlen
            · unfold sessSign
              split
              · exact hlen
              · exact hlen
              · simp only
                split <;> exact hlen
            · rw [(combineSig_keeps _ _ _ _).2.2.2.1]; exact hlen
      exact hP h1
    exact this i s hs
  have hln := hi.nonces.2 hl.2
  constructor
  · unfold Op.run
    simp only [hs]
    cases hloc : s.localNonces with
    | none => exact absurd hloc hln
    | some n => rw [sessSign_early hloc hl.2]
  · intro n
    unfold Op.run registerPubNonce
    simp only [hs]
    rw [if_pos (by rw [hl.1, h1])]

theorem run_nonce {th : TH} {w : World} {i : Nat} {n : Bytes} {r : Res CErr Bool} (h : ((Op.registerNonce i n).run th w).2 = .bool r) :
    ∃ s, w.sess[i]? = some s ∧ (registerPubNonce w.ctx s n).2 = r ∧
      ((Op.registerNonce i n).run th w).1.sess[i]? = some (registerPubNonce w.ctx s n).1 := by
  unfold Op.run at h ⊢
  simp only at h ⊢
  split at h
  · cases h
  · rename_i s hs
    injection h with h
    refine ⟨s, hs, h, ?_⟩
    simp only [hs]
    rw [List.getElem?_set_self (List.getElem?_eq_some_iff.1 hs).1]

theorem run_combine {th : TH} {w : World} {i : Nat} {S : Sc} {r : Res CErr Bool} (h : ((Op.combine i S).run th w).2 = .bool r) :
    ∃ s, w.sess[i]? = some s ∧ (combineSig th w.ctx s S).2 = r ∧
      ((Op.combine i S).run th w).1.sess[i]? = some (combineSig th w.ctx s S).1 := by
  unfold Op.run at h ⊢
  simp only at h ⊢
  split at h
  · cases h
  · rename_i s hs
    injection h with h
    refine ⟨s, hs, h, ?_⟩
    simp only [hs]
    rw [List.getElem?_set_self (List.getElem?_eq_some_iff.1 hs).1]

/-- **C99.** A malformed public nonce that completes the set ends the session: it cannot be replaced, and no later call makes Sign work. -/
theorem C99_bad_nonce_stuck (th : TH) (w : World) (h : spec.Reach th w) (i : Nat) (n : Bytes) (e : PErr)
    (hb : ((Op.registerNonce i n).run th w).2 = .bool (.err (.nonce e))) (later : List Op) :
    (∀ n', ((Op.registerNonce i n').run th (runAll th ((Op.registerNonce i n).run th w).1 later)).2 = .bool (.err .alreadyHaveAllNonces)) ∧
    ∀ msg o, ((Op.sign i msg o).run th (runAll th ((Op.registerNonce i n).run th w).1 later)).2 =
      .sig (.err .combinedNonceUnavailable) := by
  obtain ⟨s, hs, hr, hs'⟩ := run_nonce hb
  have hi := sinv h i s hs
  have hst : ∃ s', ((Op.registerNonce i n).run th w).1.sess[i]? = some s' ∧
      (s'.pubNonces.length : Int) = ((Op.registerNonce i n).run th w).1.ctx.numSigners ∧ s'.combinedNonce = none ∧ s'.localNonces ≠ none := by
    refine ⟨_, hs', ?_⟩
    rw [step_num]
    unfold registerPubNonce at hr ⊢
    simp only at hr ⊢
    split at hr
    · cases hr
    · rename_i hne
      have hcn : s.combinedNonce = none := by
        cases hc : s.combinedNonce with
        | none => rfl
        | some cn => exact absurd (hi.comb cn hc).2.1 hne
      split at hr
      · rename_i hfull
        rw [if_neg hne, if_pos hfull]
        split at hr
        · rename_i e' he
          simp only
          exact ⟨hfull, hcn, hi.nonces.2 hcn⟩
        · cases hr
      · cases hr
  have := runAll_induct (P := fun w => ∃ s', w.sess[i]? = some s' ∧ (s'.pubNonces.length : Int) = w.ctx.numSigners ∧
    s'.combinedNonce = none ∧ s'.localNonces ≠ none) (th := th) (by
    rintro w op ⟨s, e1, e2, e3, e4⟩
    obtain ⟨s', f1, f2⟩ := sess_step th w op i s e1
    refine ⟨s', f1, ?_⟩
    rw [step_num]
    rcases f2 with rfl | ⟨n, -, rfl⟩ | ⟨m, o, -, rfl⟩ | ⟨S, -, rfl⟩
    · exact ⟨e2, e3, e4⟩
    · unfold registerPubNonce; rw [if_pos e2]; exact ⟨e2, e3, e4⟩
    · cases hl : s.localNonces with
      | none => exact absurd hl e4
      | some n => rw [sessSign_early hl e3]; exact ⟨e2, e3, e4⟩
    · obtain ⟨g1, -, -, g2, g3⟩ := combineSig_keeps th w.ctx s S
      rw [g1, g2, g3]; exact ⟨e2, e3, e4⟩) later _ hst
  generalize runAll th _ later = w' at this ⊢
  obtain ⟨s', e1, e2, e3, e4⟩ := this
  constructor
  · intro n'
    unfold Op.run registerPubNonce
    simp only [e1]
    rw [if_pos e2]
  · intro msg o
    unfold Op.run
    simp only [e1]
    cases hl : s'.localNonces with
    | none => exact absurd hl e4
    | some n => rw [sessSign_early hl e3]

/-- **C99.** CombineSig panics when it completes the set of signatures of a session that has not itself signed. -/
theorem C99_combine_before_sign_panics (th : TH) (w : World) (i : Nat) (s : Sess) (S : Sc) (hs : w.sess[i]? = some s)
    (ho : s.ourSig = none) (hl : s.sigs.length + 1 = w.ctx.keySet.length) : ((Op.combine i S).run th w).2 = .bool .panic := by
  unfold Op.run combineSig
  simp only [hs]
  rw [if_neg (by omega)]
  have : (s.sigs ++ [S]).length = w.ctx.keySet.length := by simpa using hl
  rw [if_pos this, ho]
  cases Ctx.combineOpt th w.ctx s.msg <;> rfl

/-- The state of a session that can never finish: all signatures counted, its own nonce used, no final signature. -/
def Finished (w : World) (i : Nat) : Prop := ∃ s, w.sess[i]? = some s ∧ s.localNonces = none ∧ s.sigs.length = w.ctx.keySet.length ∧
  s.finalSig = none

theorem step_keys (th : TH) (w : World) (hw : WInv th w) (hne : w.sess ≠ []) (op : Op) :
    (op.run th w).1.ctx.keySet.length = w.ctx.keySet.length := by
  have hf := hw.full hne
  cases op with
  | registerSigner pub =>
    change (registerSigner th w.ctx pub).1.keySet.length = w.ctx.keySet.length
    rcases registerSigner_cases th w.ctx pub with ⟨-, he⟩ | ⟨hf', -⟩ | ⟨hf', -⟩
    · rw [he]
    · rw [hf] at hf'; cases hf'
    · rw [hf] at hf'; cases hf'
  | newSession ext rand =>
    obtain ⟨e, he, -⟩ := newSession_ctx th w.ctx ext rand
    unfold Op.run
    simp only
    rw [he]
    split <;> rfl
  | registerNonce j n => unfold Op.run; simp only; split <;> rfl
  | sign j m o =>
    unfold Op.run
    simp only
    split
    · rfl
    · rename_i s hs
      rcases sessSign_ctx th w.ctx s m o with he | he
      · rw [he]
      · rw [he]; exact maybeSort_length _ _
  | combine j S => unfold Op.run; simp only; split <;> rfl

theorem finished_forever {th : TH} {i : Nat} (later : List Op) : ∀ (w : World), spec.Reach th w → Finished w i →
    Finished (runAll th w later) i := by
  induction later with
  | nil => exact fun _ _ h => h
  | cons op ops ih =>
    intro w hr hf
    refine ih _ (Reach.step hr op) ?_
    obtain ⟨s, e1, e2, e3, e4⟩ := hf
    have hne : w.sess ≠ [] := by intro h0; rw [h0] at e1; cases e1
    obtain ⟨s', f1, f2⟩ := sess_step th w op i s e1
    refine ⟨s', f1, ?_⟩
    rw [step_keys th w (winv hr) hne op]
    rcases f2 with rfl | ⟨n, -, rfl⟩ | ⟨m, o, -, rfl⟩ | ⟨S, -, rfl⟩
    · exact ⟨e2, e3, e4⟩
    · obtain ⟨g1, -, g2, g3, -⟩ := registerPubNonce_keeps w.ctx s n
      rw [g1, g2, g3]; exact ⟨e2, e3, e4⟩
    · rw [sessSign_none e2]; exact ⟨e2, e3, e4⟩
    · unfold combineSig; rw [if_pos e3]; exact ⟨e2, e3, e4⟩

theorem finished_facts {th : TH} {w : World} {i : Nat} (h : Finished w i) :
    (∃ s, w.sess[i]? = some s ∧ s.finalSig = none) ∧ (∀ S, ((Op.combine i S).run th w).2 = .bool (.err .alreadyHaveAllSigs)) ∧
    ∀ msg o, ((Op.sign i msg o).run th w).2 = .sig (.err .signingContextReuse) := by
  obtain ⟨s, e1, e2, e3, e4⟩ := h
  refine ⟨⟨s, e1, e4⟩, fun S => ?_, fun msg o => ?_⟩
  · unfold Op.run combineSig
    simp only [e1]
    rw [if_pos e3]
  · unfold Op.run
    simp only [e1]
    rw [sessSign_none e2]

/-- **C99.** One wrong partial signature ends the session: after ErrFinalSigInvalid there is no final signature, ever, and no way to replace the
bad one or to sign again. -/
theorem C99_no_retry (th : TH) (w : World) (h : spec.Reach th w) (i : Nat) (S : Sc)
    (hb : ((Op.combine i S).run th w).2 = .bool (.err .finalSigInvalid)) (later : List Op) :
    (∃ s, (runAll th ((Op.combine i S).run th w).1 later).sess[i]? = some s ∧ s.finalSig = none) ∧
    (∀ S', ((Op.combine i S').run th (runAll th ((Op.combine i S).run th w).1 later)).2 = .bool (.err .alreadyHaveAllSigs)) ∧
    ∀ msg o, ((Op.sign i msg o).run th (runAll th ((Op.combine i S).run th w).1 later)).2 = .sig (.err .signingContextReuse) := by
  refine finished_facts (finished_forever later _ (Reach.step h _) ?_)
  obtain ⟨s, hs, hr, hs'⟩ := run_combine hb
  have hi := sinv h i s hs
  have hne : w.sess ≠ [] := by intro h0; rw [h0] at hs; cases hs
  refine ⟨_, hs', ?_⟩
  rw [step_keys th w (winv h) hne]
  unfold combineSig at hr ⊢
  simp only at hr ⊢
  split at hr
  · cases hr
  · rename_i h1
    split at hr
    · rename_i h2
      rw [if_neg h1, if_pos h2]
      split at hr
      · rename_i co our ag hco hour hag
        try simp only at hr
        try simp only
        split at hr
        · cases hr
        · rename_i hv
          rw [if_neg hv]
          refine ⟨?_, h2, ?_⟩
          · cases hl : s.localNonces with
            | none => rfl
            | some n =>
              have := hi.fresh (by rw [hl]; simp)
              rw [hour] at this; cases this
          · cases hf : s.finalSig with
            | none => rfl
            | some g =>
              obtain ⟨q, ag', -, -, -, hlen, -⟩ := hi.final g hf
              exact absurd hlen h1
      · cases hr
    · cases hr

/-- **C99.** A session that signs last gets no final signature: if the other signatures were all combined before Sign, Sign succeeds, but the
final signature is never computed and CombineSig only reports that it has all the signatures. -/
theorem C99_sign_last (th : TH) (w : World) (h : spec.Reach th w) (i : Nat) (s : Sess) (hs : w.sess[i]? = some s)
    (hl : s.sigs.length + 1 = w.ctx.keySet.length) (msg : Bytes) (o : SignOpts) (q : PSig)
    (hq : ((Op.sign i msg o).run th w).2 = .sig (.ok q)) (later : List Op) :
    (∃ s, (runAll th ((Op.sign i msg o).run th w).1 later).sess[i]? = some s ∧ s.finalSig = none) ∧
    ∀ S, ((Op.combine i S).run th (runAll th ((Op.sign i msg o).run th w).1 later)).2 = .bool (.err .alreadyHaveAllSigs) := by
  have hfin : Finished ((Op.sign i msg o).run th w).1 i := by
    obtain ⟨s0, hs0, hr⟩ := run_sign hq
    rw [hs] at hs0
    injection hs0 with hs0
    subst hs0
    obtain ⟨n, cn, hn, hcn, hsig, hst⟩ := sessSign_ok hr
    have hi := sinv h i s hs
    have hne : w.sess ≠ [] := by intro h0; rw [h0] at hs; cases hs
    refine ⟨(sessSign th w.ctx s msg o).2.1, ?_, ?_⟩
    · unfold Op.run
      simp only [hs]
      rw [List.getElem?_set_self (List.getElem?_eq_some_iff.1 hs).1]
    · rw [step_keys th w (winv h) hne, hst]
      refine ⟨rfl, by simpa using hl, ?_⟩
      simp only
      cases hf : s.finalSig with
      | none => rfl
      | some g =>
        obtain ⟨q, ag', -, -, -, hlen, -⟩ := hi.final g hf
        omega
  have := finished_facts (th := th) (finished_forever later _ (Reach.step h _) hfin)
  exact ⟨this.1, this.2.1⟩

/-! ### Making contexts -/

/-- **C99.** NewContext with known signers refuses exactly the sets that do not contain the even-y form of the caller's key; in particular a
set that lists the caller's own public key with odd y is refused. -/
theorem C99_own_key_required (th : TH) (d : Sc) (sort : Bool) (o : CtxOpts) (rand : Option Bytes) (ks : List Pt) (hd : d ≠ 0)
    (hk : o.keySet = some ks) :
    (newContext th d sort o rand = .err .signerNotInKeySet ↔ even (mulG d) ∉ ks) ∧
    (oddY (mulG d) = true → ∀ q, oddY q = false → q ≠ even (mulG d) → newContext th d sort { o with keySet := some [mulG d, q] } rand =
      .err .signerNotInKeySet) := by
  have key : ∀ (o : CtxOpts) (ks : List Pt), o.keySet = some ks →
      (newContext th d sort o rand = .err .signerNotInKeySet ↔ even (mulG d) ∉ ks) := by
    intro o ks hk
    unfold newContext
    rw [serialize_eq, parseXOnly_xb (mulG_ne hd)]
    generalize even (mulG d) = K
    simp only [hk]
    unfold combineSignerKeys
    simp only
    by_cases hm : K ∈ ks
    · rw [if_neg (not_not.2 hm)]
      constructor
      · intro h
        exfalso
        split at h
        · cases h
        · rename_i c e he
          split at he
          · injection he with _ he; cases he
          · injection he with _ he; injection he with he; injection h with h; subst h; cases he
          · injection he with _ he; cases he
        · cases h
      · exact fun h => absurd hm h
    · rw [if_pos hm]
      exact ⟨fun _ => hm, fun _ => rfl⟩
  refine ⟨key o ks hk, fun ho q hq hne => (key _ _ rfl).2 ?_⟩
  simp only [List.mem_cons, List.not_mem_nil, or_false, not_or]
  refine ⟨fun h => ?_, fun h => hne h.symm⟩
  have := oddY_even (mulG d)
  rw [h, ho] at this
  cases this

/-- **C99.** A negative number of signers panics, none is an error. -/
theorem C99_number_of_signers (th : TH) (d : Sc) (sort : Bool) (o : CtxOpts) (rand : Option Bytes) (hd : d ≠ 0) (hk : o.keySet = none) :
    (newContext th d sort o rand = .panic ↔ o.numSigners < 0) ∧
    (newContext th d sort o rand = .err .signersNotSpecified ↔ o.numSigners = 0) := by
  unfold newContext
  rw [serialize_eq, parseXOnly_xb (mulG_ne hd)]
  generalize even (mulG d) = K
  simp only [hk]
  by_cases h0 : o.numSigners = 0
  · rw [if_pos h0]
    exact ⟨⟨fun h => (by cases h), fun h => (by omega)⟩, ⟨fun _ => h0, fun _ => rfl⟩⟩
  · rw [if_neg h0]
    by_cases h1 : o.numSigners < 0
    · rw [if_pos h1]
      exact ⟨⟨fun _ => h1, fun _ => rfl⟩, ⟨fun h => (by cases h), fun h => absurd h h0⟩⟩
    · rw [if_neg h1]
      refine ⟨⟨fun h => ?_, fun h => absurd h h1⟩, ⟨fun h => ?_, fun h => absurd h h0⟩⟩
      · split at h
        · split at h <;> cases h
        · cases h
      · split at h
        · split at h <;> cases h
        · cases h

/-- **C99.** A context announced for one signer with WithNumSigners(1) never has a combined key; making a session from it without a nonce of
one's own panics. -/
theorem C99_one_signer_context (th : TH) (d : Sc) (sort : Bool) (o : CtxOpts) (rand : Option Bytes) (c : Ctx)
    (h : newContext th d sort o rand = .ok c) (hk : o.keySet = none) (h1 : o.numSigners = 1) (he : o.earlyNonce = false) (ops : List Op) :
    (runAll th ⟨c, []⟩ ops).ctx.combinedKey = .error .notEnoughSigners ∧
    (∀ k, ((Op.registerSigner k).run th (runAll th ⟨c, []⟩ ops)).2 = .bool (.err .alreadyHaveAllSigners)) ∧
    ∀ r, ((Op.newSession none r).run th (runAll th ⟨c, []⟩ ops)).2 = .session .panic := by
  obtain ⟨-, -, -, -, h4, -, -, -, h5⟩ := newContext_ok h
  rcases h5 with ⟨ks, ag, k1, -⟩ | ⟨-, -, k3, k4, k5⟩
  · rw [hk] at k1; cases k1
  rw [he, if_neg (by simp)] at k5
  have h0 : c.full = true ∧ c.combined = none ∧ c.early = none := by
    refine ⟨?_, k4, k5⟩
    rw [full_iff, k3, h4, h1]; rfl
  have := runAll_induct (P := fun w => w.ctx.full = true ∧ w.ctx.combined = none ∧ w.ctx.early = none) (th := th) (by
    rintro w op ⟨e1, e2, e3⟩
    refine ⟨?_, ?_, early_step th w op e3⟩
    · cases op with
      | registerSigner pub =>
        change (registerSigner th w.ctx pub).1.full = true
        rcases registerSigner_cases th w.ctx pub with ⟨-, he⟩ | ⟨hf', -⟩ | ⟨hf', -⟩
        · rw [he]; exact e1
        · rw [e1] at hf'; cases hf'
        · rw [e1] at hf'; cases hf'
      | newSession ext rand =>
        obtain ⟨e, he, -⟩ := newSession_ctx th w.ctx ext rand
        unfold Op.run
        simp only
        rw [he]
        split <;> exact e1
      | registerNonce j n => unfold Op.run; simp only; split <;> exact e1
      | sign j m o =>
        unfold Op.run
        simp only
        split
        · exact e1
        · rename_i s hs
          rcases sessSign_ctx th w.ctx s m o with he | he
          · rw [he]; exact e1
          · rw [he]; rw [full_iff] at e1 ⊢; simp only [maybeSort_length]; exact e1
      | combine j S => unfold Op.run; simp only; split <;> exact e1
    · cases op with
      | registerSigner pub =>
        change (registerSigner th w.ctx pub).1.combined = none
        rcases registerSigner_cases th w.ctx pub with ⟨-, he⟩ | ⟨hf', -⟩ | ⟨hf', -⟩
        · rw [he]; exact e2
        · rw [e1] at hf'; cases hf'
        · rw [e1] at hf'; cases hf'
      | newSession ext rand =>
        obtain ⟨e, he, -⟩ := newSession_ctx th w.ctx ext rand
        unfold Op.run
        simp only
        rw [he]
        split <;> exact e2
      | registerNonce j n => unfold Op.run; simp only; split <;> exact e2
      | sign j m o =>
        unfold Op.run
        simp only
        split
        · exact e2
        · rename_i s hs
          rcases sessSign_ctx th w.ctx s m o with he | he <;> rw [he] <;> exact e2
      | combine j S => unfold Op.run; simp only; split <;> exact e2) ops ⟨c, []⟩ h0
  generalize runAll th _ ops = w at this ⊢
  obtain ⟨e1, e2, e3⟩ := this
  refine ⟨by unfold Ctx.combinedKey; rw [e2], fun k => ?_, fun r => ?_⟩
  · unfold Op.run registerSigner
    simp only
    rw [if_pos e1]
  · unfold Op.run newSession
    simp only
    rw [e1, e2, e3]
    rfl

/-- **C99.** RegisterSigner: refused once the announced number is reached; true exactly when it completes the set and the keys aggregate, and
then CombinedKey has the key. -/
theorem C99_register_signer (th : TH) (w : World) (h : spec.Reach th w) (k : Pt) :
    (((Op.registerSigner k).run th w).2 = .bool (.err .alreadyHaveAllSigners) ↔ (w.ctx.keySet.length : Int) = w.ctx.numSigners) ∧
    (((Op.registerSigner k).run th w).2 = .bool (.ok true) →
      (w.ctx.keySet.length : Int) + 1 = w.ctx.numSigners ∧ ∃ Q, ((Op.registerSigner k).run th w).1.ctx.combinedKey = .ok Q) ∧
    (((Op.registerSigner k).run th w).2 = .bool (.ok false) →
      ((Op.registerSigner k).run th w).1.ctx.combinedKey = .error .notEnoughSigners) := by
  change (Out.bool (registerSigner th w.ctx k).2 = _ ↔ _) ∧ (Out.bool (registerSigner th w.ctx k).2 = _ → _ ∧ ∃ Q,
    (registerSigner th w.ctx k).1.combinedKey = _) ∧ (Out.bool (registerSigner th w.ctx k).2 = _ → (registerSigner th w.ctx k).1.combinedKey = _)
  have hw := winv h
  have hnf : ∀ c : Ctx, c.full = false → (c.keySet.length : Int) ≠ c.numSigners := by
    intro c hc he
    rw [(full_iff c).2 he] at hc; cases hc
  rcases registerSigner_cases th w.ctx k with ⟨hf, he⟩ | ⟨hf, hf', he⟩ | ⟨hf, hf', he, hok, hnot⟩
  · rw [he]
    refine ⟨⟨fun _ => (full_iff _).1 hf, fun _ => rfl⟩, fun h => ?_, fun h => ?_⟩ <;> (injection h with h; cases h)
  · rw [he]
    refine ⟨⟨fun h => ?_, fun h => absurd h (hnf _ hf)⟩, fun h => ?_, fun _ => ?_⟩
    · injection h with h; cases h
    · injection h with h; injection h with h; cases h
    · unfold Ctx.combinedKey
      simp only
      cases hc : w.ctx.combined with
      | none => rfl
      | some ag => have := (hw.comb ag hc).1; rw [hf] at this; cases this
  · refine ⟨⟨fun h => ?_, fun h => absurd h (hnf _ hf)⟩, fun h => ?_, fun h => ?_⟩
    · exfalso
      injection h with h
      unfold registerSigner at h
      simp only at h
      rw [if_neg (by rw [hf]; simp), if_pos hf'] at h
      split at h
      · cases h
      · rename_i c e hc
        injection h with h
        subst h
        unfold combineSignerKeys at hc
        simp only at hc
        split at hc
        · injection hc with _ hc; injection hc with hc; cases hc
        · split at hc
          · injection hc with _ hc; cases hc
          · injection hc with _ hc; injection hc with hc; cases hc
          · injection hc with _ hc; cases hc
      · cases h
    · injection h with h
      refine ⟨?_, ?_⟩
      · have := (full_iff _).1 hf'
        simp only [List.length_append, List.length_cons, List.length_nil] at this
        push_cast at this
        omega
      · have hok' := hok.1 h
        obtain ⟨-, ag, -, g3⟩ := combineSignerKeys_ok (c' := (combineSignerKeys th { w.ctx with keySet := w.ctx.keySet ++ [k] }).1)
          (th := th) (c := { w.ctx with keySet := w.ctx.keySet ++ [k] }) (Prod.ext rfl hok')
        rw [he, g3]
        exact ⟨ag.final, rfl⟩
    · injection h with h
      exact absurd h hnot

end Tss.Musig2
