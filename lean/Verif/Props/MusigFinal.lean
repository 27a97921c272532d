import Verif.Props.MusigSession
/-
C99, second part: what sessions sign for, final signatures, and the ways a session gets stuck.
-/
namespace Tss.Musig2
open Tss Tss.Bip340
open Tss.Secp (E p ord G pt point_cases G_ne_zero)

namespace spec

/-- Reachable by calls none of which passes WithSortedKeys to the Sign of a context that was not made with sorting. -/
def PlainReach (th : TH) (w : World) : Prop := ∃ w0 ops, Start th w0 ∧ w = runAll th w0 ops ∧
  ∀ op ∈ ops, ∀ i m o, op = Op.sign i m o → o.sort = true → w0.ctx.sort = true

/-- The options of Sign and Verify that correspond to a context. -/
def optsOf (c : Ctx) (fast : Bool) : SignOpts := ⟨fast, c.sort, c.tweaks, c.taproot, c.bip86⟩

end spec

theorem PlainReach.reach {th : TH} {w : World} (h : spec.PlainReach th w) : spec.Reach th w := by
  obtain ⟨w0, ops, h1, h2, -⟩ := h
  exact ⟨w0, ops, h1, h2⟩

theorem step_sort (th : TH) (w : World) (op : Op) : (op.run th w).1.ctx.sort = w.ctx.sort := by
  cases op with
  | registerSigner pub =>
    change (registerSigner th w.ctx pub).1.sort = w.ctx.sort
    rcases registerSigner_cases th w.ctx pub with ⟨-, he⟩ | ⟨-, -, he⟩ | ⟨-, -, he, -⟩
    · rw [he]
    · rw [he]
    · rw [he, (combineSignerKeys_fields th _).2.2.1]
  | newSession ext rand =>
    obtain ⟨e, he, -⟩ := newSession_ctx th w.ctx ext rand
    unfold Op.run
    simp only
    rw [he]
    split <;> rfl
  | registerNonce j n => unfold Op.run; simp only; split <;> rfl
  | sign j m o =>
    unfold Op.run
    simp only
    split
    · rfl
    · rename_i s hs
      rcases sessSign_ctx th w.ctx s m o with he | he <;> rw [he]
  | combine j S => unfold Op.run; simp only; split <;> rfl

/-- The key set is in the order in which it was aggregated. -/
def SInOrder (th : TH) (w : World) : Prop := ∀ ag, w.ctx.combined = some ag →
  aggregateKeys th w.ctx.keySet false w.ctx.tweakOpt = .ok ag ∧ maybeSort w.ctx.sort w.ctx.keySet = w.ctx.keySet

theorem maybeSort_idem (b : Bool) (l : List Pt) : maybeSort b (maybeSort b l) = maybeSort b l := by
  unfold maybeSort
  cases b with
  | false => rfl
  | true => exact sortKeys_idem l

theorem inOrder_step (th : TH) (w : World) (op : Op) (hw : WInv th w) (h : SInOrder th w)
    (hop : ∀ i m o, op = Op.sign i m o → o.sort = true → w.ctx.sort = true) : SInOrder th (op.run th w).1 := by
  cases op with
  | registerSigner pub =>
    change SInOrder th ⟨(registerSigner th w.ctx pub).1, w.sess⟩
    rcases registerSigner_cases th w.ctx pub with ⟨hf, he⟩ | ⟨hf, hf', he⟩ | ⟨hf, hf', he, hok, -⟩
    · rw [he]; exact h
    · rw [he]
      intro ag hag
      have := (hw.comb ag hag).1
      rw [hf] at this; cases this
    · rw [he]
      have hcn : w.ctx.combined = none := by
        cases hc : w.ctx.combined with
        | none => rfl
        | some ag => have := (hw.comb ag hc).1; rw [hf] at this; cases this
      intro ag hag
      rcases combineSignerKeys_any th { w.ctx with keySet := w.ctx.keySet ++ [pub] } hcn with hn | ⟨ag', -, hok'⟩
      · simp only at hag; rw [hn] at hag; cases hag
      · obtain ⟨-, ag'', g2, g3⟩ := combineSignerKeys_ok (c' := (combineSignerKeys th { w.ctx with keySet := w.ctx.keySet ++ [pub] }).1)
          (th := th) (c := { w.ctx with keySet := w.ctx.keySet ++ [pub] }) (Prod.ext rfl hok')
        simp only at hag ⊢
        rw [g3] at hag ⊢
        injection hag with hag
        subst hag
        refine ⟨?_, maybeSort_idem _ _⟩
        rw [← g2]
        exact aggregate_sorted th _ _ _
  | newSession ext rand =>
    obtain ⟨e, he, -⟩ := newSession_ctx th w.ctx ext rand
    unfold Op.run
    simp only
    rw [he]
    split <;> exact h
  | registerNonce j n => unfold Op.run; simp only; split <;> exact h
  | sign j m o =>
    unfold Op.run
    simp only
    split
    · exact h
    · rename_i s hs
      rcases sessSign_ctx th w.ctx s m o with he | he
      · rw [he]; exact h
      · rw [he]
        intro ag hag
        obtain ⟨h1, h2⟩ := h ag hag
        have hk : maybeSort o.sort w.ctx.keySet = w.ctx.keySet := by
          cases ho : o.sort with
          | false => rfl
          | true => rw [← hop j m o rfl ho]; exact h2
        simp only [hk]
        exact ⟨h1, h2⟩
  | combine j S => unfold Op.run; simp only; split <;> exact h

theorem inOrder {th : TH} {w : World} (h : spec.PlainReach th w) : SInOrder th w := by
  obtain ⟨w0, ops, h1, rfl, h2⟩ := h
  have h0 : SInOrder th w0 := by
    obtain ⟨d, sort, o, rand, hc, hs, ho⟩ := h1
    obtain ⟨hd, -, -, h3, -, -, -, -, h5⟩ := newContext_ok hc
    rcases h5 with ⟨ks, ag, -, -, k3, k4, -, k5⟩ | ⟨-, -, -, k4, -⟩
    · intro ag' hag
      rw [k4] at hag
      injection hag with hag
      subst hag
      rw [k3, h3]
      exact ⟨(aggregate_sorted th ks _ sort).trans k5, maybeSort_idem _ _⟩
    · intro ag hag; rw [k4] at hag; cases hag
  have hw := winv_start h1
  clear h1
  induction ops generalizing w0 with
  | nil => exact h0
  | cons op ops ih =>
    refine ih _ (fun op' hop' i m o => ?_) (inOrder_step th w0 op hw h0 (h2 op (by simp))) (winv_step th w0 op hw)
    rw [step_sort]
    exact h2 op' (by simp [hop']) i m o

theorem signOpts_tweak (c : Ctx) (o : SignOpts) (h1 : o.tweaks = []) (h2 : o.taproot = none) (h3 : o.bip86 = false) :
    (c.signOpts o).tweakOpt = c.tweakOpt ∧ (c.signOpts o).sort = o.sort := by
  unfold Ctx.signOpts SignOpts.tweakOpt Ctx.tweakOpt
  cases c.bip86 with
  | true => simp
  | false =>
    simp only [Bool.false_eq_true, if_false]
    cases c.taproot with
    | some r => simp [h3]
    | none =>
      by_cases ht : c.tweaks.length = 0
      · have : c.tweaks = [] := List.length_eq_zero_iff.1 ht
        simp [this, h1, h2, h3]
      · simp [ht, h2, h3]

theorem sessSign_ok {th : TH} {c : Ctx} {s : Sess} {m : Bytes} {o : SignOpts} {q : PSig} (h : (sessSign th c s m o).2.2 = .ok q) :
    ∃ n cn, s.localNonces = some n ∧ s.combinedNonce = some cn ∧ Musig2.sign th n.sec c.d cn c.keySet m (c.signOpts o) = .ok q ∧
      (sessSign th c s m o).2.1 = { s with localNonces := none, msg := m, ourSig := some q, sigs := s.sigs ++ [q.S] } := by
  unfold sessSign at h ⊢
  split at h
  · cases h
  · cases h
  · rename_i n cn hn hcn
    simp only at h ⊢
    cases hr : Musig2.sign th n.sec c.d cn c.keySet m (c.signOpts o) with
    | panic => rw [hr] at h; cases h
    | err e => rw [hr] at h; cases h
    | ok q' =>
      rw [hr] at h
      simp only at h
      injection h with h
      subst h
      exact ⟨n, cn, hn, hcn, hr, rfl⟩

theorem sessSign_fail {th : TH} {c : Ctx} {s : Sess} {m : Bytes} {o : SignOpts} (h : ∀ q, (sessSign th c s m o).2.2 ≠ .ok q) :
    (sessSign th c s m o).2.1.ourSig = s.ourSig ∧ (sessSign th c s m o).2.1.msg = s.msg := by
  unfold sessSign at h ⊢
  split
  · exact ⟨rfl, rfl⟩
  · exact ⟨rfl, rfl⟩
  · rename_i n cn hn hcn
    simp only [hn, hcn] at h ⊢
    cases hr : Musig2.sign th n.sec c.d cn c.keySet m (c.signOpts o) with
    | panic => exact ⟨rfl, rfl⟩
    | err e => exact ⟨rfl, rfl⟩
    | ok q => rw [hr] at h; exact absurd rfl (h q)

theorem run_sign {th : TH} {w : World} {i : Nat} {m : Bytes} {o : SignOpts} {r : Res CErr PSig}
    (h : ((Op.sign i m o).run th w).2 = .sig r) : ∃ s, w.sess[i]? = some s ∧ (sessSign th w.ctx s m o).2.2 = r := by
  unfold Op.run at h
  simp only at h
  split at h
  · cases h
  · rename_i s hs
    injection h with h
    exact ⟨s, hs, h⟩

/-- **C99.** A session signs for the key that CombinedKey shows: the partial signature returned verifies, for the signer's key and the public nonce
of the secret nonce used, against the context's key set, sorting and tweaks, and these aggregate to the combined key. (The caller gives
no tweaks of its own to Sign and uses WithSortedKeys at most on sorting contexts.) -/
theorem C99_signs_for_combined_key (th : TH) (w : World) (h : spec.PlainReach th w) (i : Nat) (msg : Bytes) (o : SignOpts) (q : PSig)
    (hs : o.sort = true → w.ctx.sort = true) (h1 : o.tweaks = []) (h2 : o.taproot = none) (h3 : o.bip86 = false)
    (hq : ((Op.sign i msg o).run th w).2 = .sig (.ok q)) (Q : Pt) (hQ : w.ctx.combinedKey = .ok Q) :
    ∃ s n cn, w.sess[i]? = some s ∧ s.localNonces = some n ∧ s.combinedNonce = some cn ∧
      (∀ fast, verifyPartial th q.S (secNonceToPubNonce n.sec) cn w.ctx.keySet w.ctx.pubKey msg (spec.optsOf w.ctx fast) = .ok ()) ∧
      ∃ ag, aggregateKeys th w.ctx.keySet w.ctx.sort w.ctx.tweakOpt = .ok ag ∧ ag.final = Q := by
  obtain ⟨s, hi, hr⟩ := run_sign hq
  obtain ⟨n, cn, hn, hcn, hsig, -⟩ := sessSign_ok hr
  unfold Ctx.combinedKey at hQ
  split at hQ
  · cases hQ
  rename_i ag hag
  injection hQ with hQ
  obtain ⟨ho, hms⟩ := inOrder h ag hag
  obtain ⟨t1, t2⟩ := signOpts_tweak w.ctx o h1 h2 h3
  have hwk := (winv (PlainReach.reach h)).key
  have hboth : aggregateKeys th w.ctx.keySet w.ctx.sort w.ctx.tweakOpt = .ok ag := by
    rw [← ho]
    have := aggregate_sorted th w.ctx.keySet w.ctx.tweakOpt w.ctx.sort
    rw [hms] at this
    exact this.symm
  have hsort : maybeSort o.sort w.ctx.keySet = w.ctx.keySet := by
    cases ho' : o.sort with
    | false => rfl
    | true => rw [← hs ho']; exact hms
  have hago : aggregateKeys th w.ctx.keySet o.sort w.ctx.tweakOpt = .ok ag := by
    cases ho' : o.sort with
    | false => exact ho
    | true => rw [← hs ho']; exact hboth
  refine ⟨s, n, cn, hi, hn, hcn, fun fast => ?_, ag, hboth, hQ⟩
  have hv := C97_sign_verifies th _ _ _ _ _ _ _ hsig
  rw [verifyPartial_iff, t1, t2, hago, hsort] at hv
  have heq : ∀ k : Pt, k ≠ 0 → ∀ S, (verifyPartial th S (secNonceToPubNonce n.sec) cn w.ctx.keySet (even k) msg (spec.optsOf w.ctx fast) = .ok () ↔
      verifyPartial th S (secNonceToPubNonce n.sec) cn w.ctx.keySet k msg (spec.optsOf w.ctx fast) = .ok ()) := by
    intro k _ S
    unfold verifyPartial
    rw [serialize_even]
  rw [hwk.1, heq _ (mulG_ne hwk.2), verifyPartial_iff]
  have e1 : (spec.optsOf w.ctx fast).tweakOpt = w.ctx.tweakOpt := rfl
  have e2 : (spec.optsOf w.ctx fast).sort = w.ctx.sort := rfl
  rw [e1, e2, hboth, hms]
  exact hv

/-- **C99.** WithSortedKeys on a context made without sorting reorders the context's own key set, for all its sessions. -/
theorem C99_sorted_sign_reorders (th : TH) (w : World) (i : Nat) (msg : Bytes) (o : SignOpts) (q : PSig) (hs : o.sort = true)
    (hq : ((Op.sign i msg o).run th w).2 = .sig (.ok q)) :
    ((Op.sign i msg o).run th w).1.ctx.keySet.Pairwise (fun a b => serializePubKey a ≤ serializePubKey b) ∧
    ((Op.sign i msg o).run th w).1.ctx.combined = w.ctx.combined := by
  obtain ⟨s, hi, hr⟩ := run_sign hq
  unfold Op.run
  simp only [hi]
  unfold sessSign at hr ⊢
  split at hr
  · cases hr
  · cases hr
  · rename_i n cn hn hcn
    simp only at hr ⊢
    have hk : maybeSort o.sort w.ctx.keySet = sortKeys w.ctx.keySet := by rw [hs]; rfl
    cases hr' : Musig2.sign th n.sec w.ctx.d cn w.ctx.keySet msg (w.ctx.signOpts o) with
    | panic => rw [hr'] at hr; cases hr
    | err e => rw [hr'] at hr; cases hr
    | ok q' =>
      simp only [hk]
      exact ⟨sortKeys_sorted _, trivial⟩

/-! ### Sessions -/

/-- What holds of every session in every reachable world. -/
structure SInv (th : TH) (c : Ctx) (s : Sess) : Prop where
  head : ∀ n, s.localNonces = some n → s.pubNonces.head? = some n.pub
  fresh : s.localNonces ≠ none → s.ourSig = none
  nonces : 1 ≤ s.pubNonces.length ∧ (s.combinedNonce = none → s.localNonces ≠ none)
  comb : ∀ cn, s.combinedNonce = some cn → aggregateNonces s.pubNonces = .ok cn ∧ (s.pubNonces.length : Int) = c.numSigners ∧
    2 ≤ s.pubNonces.length
  final : ∀ g, s.finalSig = some g → ∃ q ag, s.ourSig = some q ∧ c.combined = some ag ∧ verify th g s.msg ag.final = true ∧
    s.sigs.length = c.keySet.length ∧ g.r = xOf q.R

theorem sinv_new (th : TH) (c : Ctx) (n : Nonces) : SInv th c ⟨some n, [n.pub], none, List.replicate 32 0, none, [], none⟩ :=
  ⟨fun m hm => (by injection hm with hm; subst hm; rfl), fun _ => rfl, ⟨le_refl _, fun _ h => (by cases h)⟩, fun _ h => (by cases h), fun _ h => (by cases h)⟩

theorem sinv_nonce {th : TH} {c : Ctx} {s : Sess} (h : SInv th c s) (n : Bytes) : SInv th c (registerPubNonce c s n).1 := by
  obtain ⟨h1, h2, h3, h4, h5⟩ := h
  unfold registerPubNonce
  simp only
  split
  · exact ⟨h1, h2, h3, h4, h5⟩
  rename_i hne
  have hh : ∀ m, s.localNonces = some m → (s.pubNonces ++ [n]).head? = some m.pub := by
    intro m hm
    rw [List.head?_append, h1 m hm]; rfl
  have hl : 1 ≤ (s.pubNonces ++ [n]).length := by rw [List.length_append]; exact Nat.le_add_right_of_le h3.1
  have hcn : s.combinedNonce = none := by
    cases hc : s.combinedNonce with
    | none => rfl
    | some cn => exact absurd (h4 cn hc).2.1 hne
  split
  · rename_i hfull
    split
    · exact ⟨hh, h2, ⟨hl, h3.2⟩, fun cn hc => (by simp only at hc; rw [hcn] at hc; cases hc), h5⟩
    · rename_i cn hcn'
      refine ⟨hh, h2, ⟨hl, fun hc => (by cases hc)⟩, fun cn' hc => ?_, h5⟩
      injection hc with hc
      subst hc
      refine ⟨hcn', hfull, ?_⟩
      simp only [List.length_append, List.length_cons, List.length_nil]
      omega
  · exact ⟨hh, h2, ⟨hl, h3.2⟩, fun cn hc => (by simp only at hc; rw [hcn] at hc; cases hc), h5⟩

theorem sinv_combine {th : TH} {c : Ctx} {s : Sess} (h : SInv th c s) (S : Sc) : SInv th c (combineSig th c s S).1 := by
  obtain ⟨h1, h2, h3, h4, h5⟩ := h
  unfold combineSig
  simp only
  split
  · exact ⟨h1, h2, h3, h4, h5⟩
  rename_i hne
  have hf : s.finalSig = none := by
    cases hc : s.finalSig with
    | none => rfl
    | some g =>
      obtain ⟨q, ag, -, -, -, hl, -⟩ := h5 g hc
      exact absurd hl hne
  split
  · rename_i hl
    split
    · rename_i co our ag hco hour hag
      split
      · rename_i hv
        refine ⟨h1, h2, h3, h4, fun g hg => ?_⟩
        injection hg with hg
        subst hg
        refine ⟨our, ag, hour, hag, hv, hl, ?_⟩
        unfold combineSigs
        rfl
      · exact ⟨h1, h2, h3, h4, fun g hg => (by simp only at hg; rw [hf] at hg; cases hg)⟩
    · exact ⟨h1, h2, h3, h4, fun g hg => (by simp only at hg; rw [hf] at hg; cases hg)⟩
  · exact ⟨h1, h2, h3, h4, fun g hg => (by simp only at hg; rw [hf] at hg; cases hg)⟩

theorem sinv_sign {th : TH} {c : Ctx} {s : Sess} (h : SInv th c s) (m : Bytes) (o : SignOpts) :
    SInv th c (sessSign th c s m o).2.1 := by
  obtain ⟨h1, h2, h3, h4, h5⟩ := h
  unfold sessSign
  split
  · exact ⟨h1, h2, h3, h4, h5⟩
  · exact ⟨h1, h2, h3, h4, h5⟩
  · rename_i n cn hn hcn
    have hour := h2 (by rw [hn]; simp)
    have hf : s.finalSig = none := by
      cases hc : s.finalSig with
      | none => rfl
      | some g =>
        obtain ⟨q, ag, hq, -⟩ := h5 g hc
        rw [hour] at hq; cases hq
    simp only
    split
    · exact ⟨h1, h2, h3, h4, h5⟩
    · exact ⟨fun n hn => (by cases hn), fun hn => absurd rfl hn, ⟨h3.1, fun h => (by simp only at h; rw [hcn] at h; cases h)⟩, h4, fun g hg => (by simp only at hg; rw [hf] at hg; cases hg)⟩
    · exact ⟨fun n hn => (by cases hn), fun hn => absurd rfl hn, ⟨h3.1, fun h => (by simp only at h; rw [hcn] at h; cases h)⟩, h4, fun g hg => (by simp only at hg; rw [hf] at hg; cases hg)⟩

/-- The part of the context the sessions depend on does not change while there are sessions. -/
theorem sinv_ctx {th : TH} {w : World} (hw : WInv th w) (hne : w.sess ≠ []) (op : Op) (s : Sess) (h : SInv th w.ctx s) :
    SInv th (op.run th w).1.ctx s := by
  obtain ⟨h1, h2, h3, h4, h5⟩ := h
  have hf := hw.full hne
  cases op with
  | registerSigner pub =>
    change SInv th (registerSigner th w.ctx pub).1 s
    rcases registerSigner_cases th w.ctx pub with ⟨-, he⟩ | ⟨hf', -⟩ | ⟨hf', -⟩
    · rw [he]; exact ⟨h1, h2, h3, h4, h5⟩
    · rw [hf] at hf'; cases hf'
    · rw [hf] at hf'; cases hf'
  | newSession ext rand =>
    obtain ⟨e, he, -⟩ := newSession_ctx th w.ctx ext rand
    unfold Op.run
    simp only
    rw [he]
    split <;> exact ⟨h1, h2, h3, h4, h5⟩
  | registerNonce j n => unfold Op.run; simp only; split <;> exact ⟨h1, h2, h3, h4, h5⟩
  | sign j m o =>
    unfold Op.run
    simp only
    split
    · exact ⟨h1, h2, h3, h4, h5⟩
    · rename_i s' hs'
      rcases sessSign_ctx th w.ctx s' m o with he | he
      · rw [he]; exact ⟨h1, h2, h3, h4, h5⟩
      · rw [he]
        refine ⟨h1, h2, h3, h4, fun g hg => ?_⟩
        obtain ⟨q, ag, a1, a2, a3, a4, a5⟩ := h5 g hg
        exact ⟨q, ag, a1, a2, a3, by simp only [maybeSort_length]; exact a4, a5⟩
  | combine j S => unfold Op.run; simp only; split <;> exact ⟨h1, h2, h3, h4, h5⟩

theorem sinv {th : TH} {w : World} (h : spec.Reach th w) : ∀ (i : Nat) (s : Sess), w.sess[i]? = some s → SInv th w.ctx s := by
  have : WInv th w ∧ ∀ (i : Nat) (s : Sess), w.sess[i]? = some s → SInv th w.ctx s := by
    refine reach_induct (P := fun w => WInv th w ∧ ∀ (i : Nat) (s : Sess), w.sess[i]? = some s → SInv th w.ctx s) ?_ ?_ h
    · intro w hw
      refine ⟨winv_start hw, ?_⟩
      obtain ⟨-, -, -, -, -, hs, -⟩ := hw
      intro i s hi
      rw [hs] at hi
      cases hi
    · rintro w op ⟨hw, ih⟩
      refine ⟨winv_step th w op hw, ?_⟩
      intro i s' hs'
      cases hold : w.sess[i]? with
      | none =>
        obtain ⟨ext, rand, rfl, hok, -⟩ := sess_new th w op i s' hs' hold
        obtain ⟨e, he, hs⟩ := newSession_ctx th w.ctx ext rand
        obtain ⟨-, n, rfl⟩ := hs s' hok
        exact sinv_new th _ n
      | some s =>
        have hne : w.sess ≠ [] := by intro h0; rw [h0] at hold; cases hold
        obtain ⟨s'', h1, h2⟩ := sess_step th w op i s hold
        rw [hs'] at h1
        injection h1 with h1
        subst h1
        refine sinv_ctx hw hne op s' ?_
        rcases h2 with rfl | ⟨n, -, rfl⟩ | ⟨m, o, -, rfl⟩ | ⟨S, -, rfl⟩
        · exact ih i s' hold
        · exact sinv_nonce (ih i s hold) n
        · exact sinv_sign (ih i s hold) m o
        · exact sinv_combine (ih i s hold) S
  exact this.2

/-- **C99.** The combined nonce of a session is the aggregate of exactly the announced number of public nonces, the session's own first. -/
theorem C99_combined_nonce (th : TH) (w : World) (h : spec.Reach th w) (i : Nat) (s : Sess) (hs : w.sess[i]? = some s) (cn : Bytes)
    (hc : s.combinedNonce = some cn) : aggregateNonces s.pubNonces = .ok cn ∧ (s.pubNonces.length : Int) = w.ctx.numSigners ∧
      ∀ n, s.localNonces = some n → s.pubNonces.head? = some n.pub := by
  have hi := sinv h i s hs
  exact ⟨(hi.comb cn hc).1, (hi.comb cn hc).2.1, hi.head⟩

/-- Where a session's own signature comes from. -/
theorem our_history {th : TH} {w0 : World} (h0 : spec.Start th w0) (i : Nat) : ∀ (ops : List Op) (s : Sess) (q : PSig),
    (runAll th w0 ops).sess[i]? = some s → s.ourSig = some q →
    ∃ a msg o b, ops = a ++ Op.sign i msg o :: b ∧ ((Op.sign i msg o).run th (runAll th w0 a)).2 = .sig (.ok q) ∧ s.msg = msg := by
  intro ops
  induction ops using List.reverseRecOn with
  | nil =>
    intro s q hs
    obtain ⟨-, -, -, -, -, hn, -⟩ := h0
    change w0.sess[i]? = some s at hs
    rw [hn] at hs
    cases hs
  | append_singleton ops op ih =>
    intro s q hs hq
    rw [runAll_append] at hs
    change (op.run th (runAll th w0 ops)).1.sess[i]? = some s at hs
    have hext : (∃ s0, (runAll th w0 ops).sess[i]? = some s0 ∧ s0.ourSig = some q ∧ s.msg = s0.msg) →
        ∃ a msg o b, ops ++ [op] = a ++ Op.sign i msg o :: b ∧ ((Op.sign i msg o).run th (runAll th w0 a)).2 = .sig (.ok q) ∧ s.msg = msg := by
      rintro ⟨s0, e1, e2, e3⟩
      obtain ⟨a, msg, o, b, f1, f2, f3⟩ := ih s0 q e1 e2
      exact ⟨a, msg, o, b ++ [op], by rw [f1, List.append_assoc, List.cons_append], f2, e3.trans f3⟩
    cases hold : (runAll th w0 ops).sess[i]? with
    | none =>
      obtain ⟨ext, rand, rfl, hok, -⟩ := sess_new th _ op i s hs hold
      obtain ⟨e, he, hs'⟩ := newSession_ctx th (runAll th w0 ops).ctx ext rand
      obtain ⟨-, n, rfl⟩ := hs' s hok
      cases hq
    | some s0 =>
      obtain ⟨s', e1, e2⟩ := sess_step th _ op i s0 hold
      rw [hs] at e1
      injection e1 with e1
      subst e1
      rcases e2 with rfl | ⟨n, -, rfl⟩ | ⟨m, o, rfl, rfl⟩ | ⟨S, -, rfl⟩
      · exact hext ⟨s, hold, hq, rfl⟩
      · have hk := registerPubNonce_keeps (runAll th w0 ops).ctx s0 n
        exact hext ⟨s0, hold, by rw [← hk.2.1]; exact hq, hk.2.2.2.2⟩
      · cases hr : (sessSign th (runAll th w0 ops).ctx s0 m o).2.2 with
        | ok q' =>
          obtain ⟨n, cn, -, -, -, hst⟩ := sessSign_ok hr
          rw [hst] at hq ⊢
          injection hq with hq
          subst hq
          refine ⟨ops, m, o, [], rfl, ?_, rfl⟩
          unfold Op.run
          simp only [hold]
          rw [hr]
        | err e =>
          have := sessSign_fail (th := th) (c := (runAll th w0 ops).ctx) (s := s0) (m := m) (o := o) (by rw [hr]; intro q h; cases h)
          exact hext ⟨s0, hold, by rw [← this.1]; exact hq, this.2⟩
        | panic =>
          have := sessSign_fail (th := th) (c := (runAll th w0 ops).ctx) (s := s0) (m := m) (o := o) (by rw [hr]; intro q h; cases h)
          exact hext ⟨s0, hold, by rw [← this.1]; exact hq, this.2⟩
      · have hk := combineSig_keeps th (runAll th w0 ops).ctx s0 S
        exact hext ⟨s0, hold, by rw [← hk.2.1]; exact hq, hk.2.2.1⟩

/-- **C99.** A final signature is always valid: whatever was called before, in whatever order, if FinalSig of a session is not nil, then that
session's Sign returned a signature earlier in the history, and FinalSig verifies, under the key CombinedKey shows, for the message
given to that Sign, and carries its nonce. -/
theorem C99_final_valid (th : TH) (w0 : World) (h0 : spec.Start th w0) (ops : List Op) (i : Nat) (s : Sess) (g : Sig)
    (hs : (runAll th w0 ops).sess[i]? = some s) (hg : s.finalSig = some g) :
    ∃ before msg o after q Q, ops = before ++ Op.sign i msg o :: after ∧
      ((Op.sign i msg o).run th (runAll th w0 before)).2 = .sig (.ok q) ∧ (runAll th w0 ops).ctx.combinedKey = .ok Q ∧
      verify th g msg Q = true ∧ g.r = xOf q.R := by
  obtain ⟨q, ag, a1, a2, a3, -, a5⟩ := (sinv ⟨w0, ops, h0, rfl⟩ i s hs).final g hg
  obtain ⟨a, msg, o, b, f1, f2, f3⟩ := our_history h0 i ops s q hs a1
  exact ⟨a, msg, o, b, q, ag.final, f1, f2, by unfold Ctx.combinedKey; rw [a2], by rw [← f3]; exact a3, a5⟩

end Tss.Musig2
