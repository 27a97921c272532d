import Verif.Model.MusigSession
import Verif.Props.MusigHonest
/-
C99: MuSig2 contexts and sessions, over all histories of calls.
-/
namespace Tss.Musig2
open Tss Tss.Bip340
open Tss.Secp (E p ord G pt point_cases G_ne_zero)

namespace spec

/-- A world as NewContext leaves it, with options as one of WithKnownSigners or WithNumSigners gives them. -/
def Start (th : TH) (w : World) : Prop := ∃ d sort o rand, newContext th d sort o rand = .ok w.ctx ∧ w.sess = [] ∧
  (o.keySet = none ∨ ∃ ks, o.keySet = some ks ∧ o.numSigners = ks.length)

/-- The world can be reached by calls of the API. -/
def Reach (th : TH) (w : World) : Prop := ∃ w0 ops, Start th w0 ∧ w = runAll th w0 ops

end spec

theorem runAll_append (th : TH) (w : World) (a b : List Op) : runAll th w (a ++ b) = runAll th (runAll th w a) b := List.foldl_append ..

theorem runAll_cons (th : TH) (w : World) (op : Op) (l : List Op) : runAll th w (op :: l) = runAll th (op.run th w).1 l := rfl

/-- Induction over histories. -/
theorem reach_induct {th : TH} {P : World → Prop} (h0 : ∀ w, spec.Start th w → P w) (hs : ∀ (w : World) (op : Op), P w → P (op.run th w).1)
    {w : World} (h : spec.Reach th w) : P w := by
  obtain ⟨w0, ops, hst, rfl⟩ := h
  have := h0 w0 hst
  clear hst
  induction ops generalizing w0 with
  | nil => exact this
  | cons op ops ih => exact ih _ (hs _ op this)

theorem runAll_induct {th : TH} {P : World → Prop} (hs : ∀ (w : World) (op : Op), P w → P (op.run th w).1) :
    ∀ (ops : List Op) (w : World), P w → P (runAll th w ops)
  | [], _, h => h
  | op :: ops, w, h => runAll_induct hs ops _ (hs w op h)

/-- What a call does to one session. -/
theorem sess_step (th : TH) (w : World) (op : Op) (i : Nat) (s : Sess) (h : w.sess[i]? = some s) :
    ∃ s', (op.run th w).1.sess[i]? = some s' ∧ (s' = s ∨ (∃ n, op = .registerNonce i n ∧ s' = (registerPubNonce w.ctx s n).1) ∨
      (∃ m o, op = .sign i m o ∧ s' = (sessSign th w.ctx s m o).2.1) ∨ ∃ S, op = .combine i S ∧ s' = (combineSig th w.ctx s S).1) := by
  have hlt : i < w.sess.length := (List.getElem?_eq_some_iff.1 h).1
  cases op with
  | registerSigner pub => exact ⟨s, h, Or.inl rfl⟩
  | newSession ext rand =>
    refine ⟨s, ?_, Or.inl rfl⟩
    unfold Op.run
    simp only
    split
    · rw [List.getElem?_append_left hlt]; exact h
    · exact h
  | registerNonce j n =>
    by_cases hij : j = i
    · subst hij
      refine ⟨(registerPubNonce w.ctx s n).1, ?_, Or.inr (Or.inl ⟨n, rfl, rfl⟩)⟩
      unfold Op.run
      simp only [h]
      rw [List.getElem?_set_self hlt]
    · refine ⟨s, ?_, Or.inl rfl⟩
      unfold Op.run
      simp only
      split
      · exact h
      · simp only; rw [List.getElem?_set_ne hij]; exact h
  | sign j m o =>
    by_cases hij : j = i
    · subst hij
      refine ⟨(sessSign th w.ctx s m o).2.1, ?_, Or.inr (Or.inr (Or.inl ⟨m, o, rfl, rfl⟩))⟩
      unfold Op.run
      simp only [h]
      rw [List.getElem?_set_self hlt]
    · refine ⟨s, ?_, Or.inl rfl⟩
      unfold Op.run
      simp only
      split
      · exact h
      · simp only; rw [List.getElem?_set_ne hij]; exact h
  | combine j S =>
    by_cases hij : j = i
    · subst hij
      refine ⟨(combineSig th w.ctx s S).1, ?_, Or.inr (Or.inr (Or.inr ⟨S, rfl, rfl⟩))⟩
      unfold Op.run
      simp only [h]
      rw [List.getElem?_set_self hlt]
    · refine ⟨s, ?_, Or.inl rfl⟩
      unfold Op.run
      simp only
      split
      · exact h
      · simp only; rw [List.getElem?_set_ne hij]; exact h

/-- Where a session that was not there comes from. -/
theorem sess_new (th : TH) (w : World) (op : Op) (i : Nat) (s' : Sess) (h : (op.run th w).1.sess[i]? = some s') (hn : w.sess[i]? = none) :
    ∃ ext rand, op = .newSession ext rand ∧ (newSession th w.ctx ext rand).2 = .ok s' ∧ i = w.sess.length := by
  have hge : w.sess.length ≤ i := List.getElem?_eq_none_iff.1 hn
  cases op with
  | registerSigner pub =>
    change w.sess[i]? = some s' at h
    rw [hn] at h; cases h
  | newSession ext rand =>
    unfold Op.run at h
    simp only at h
    split at h
    · rename_i s hs
      rw [List.getElem?_append_right hge] at h
      have h0 : i - w.sess.length = 0 := by
        have := (List.getElem?_eq_some_iff.1 h).1
        simpa using this
      rw [h0] at h
      injection h with h
      subst h
      exact ⟨ext, rand, rfl, hs, by omega⟩
    · rw [hn] at h; cases h
  | registerNonce j n =>
    unfold Op.run at h
    simp only at h
    split at h
    · rw [hn] at h; cases h
    · have := (List.getElem?_eq_some_iff.1 h).1
      simp only [List.length_set] at this
      omega
  | sign j m o =>
    unfold Op.run at h
    simp only at h
    split at h
    · rw [hn] at h; cases h
    · have := (List.getElem?_eq_some_iff.1 h).1
      simp only [List.length_set] at this
      omega
  | combine j S =>
    unfold Op.run at h
    simp only at h
    split at h
    · rw [hn] at h; cases h
    · have := (List.getElem?_eq_some_iff.1 h).1
      simp only [List.length_set] at this
      omega

/-! ### Using a nonce once -/

theorem sessSign_none {th : TH} {c : Ctx} {s : Sess} (h : s.localNonces = none) (m : Bytes) (o : SignOpts) :
    sessSign th c s m o = (c, s, .err .signingContextReuse) := by
  unfold sessSign; rw [h]

theorem sessSign_early {th : TH} {c : Ctx} {s : Sess} {n : Nonces} (h : s.localNonces = some n) (hc : s.combinedNonce = none) (m : Bytes)
    (o : SignOpts) : sessSign th c s m o = (c, s, .err .combinedNonceUnavailable) := by
  unfold sessSign; rw [h, hc]

theorem registerPubNonce_keeps (c : Ctx) (s : Sess) (n : Bytes) : (registerPubNonce c s n).1.localNonces = s.localNonces ∧
    (registerPubNonce c s n).1.ourSig = s.ourSig ∧ (registerPubNonce c s n).1.sigs = s.sigs ∧
    (registerPubNonce c s n).1.finalSig = s.finalSig ∧ (registerPubNonce c s n).1.msg = s.msg := by
  unfold registerPubNonce
  simp only
  split
  · exact ⟨rfl, rfl, rfl, rfl, rfl⟩
  · split
    · split <;> exact ⟨rfl, rfl, rfl, rfl, rfl⟩
    · exact ⟨rfl, rfl, rfl, rfl, rfl⟩

theorem combineSig_keeps (th : TH) (c : Ctx) (s : Sess) (S : Sc) : (combineSig th c s S).1.localNonces = s.localNonces ∧
    (combineSig th c s S).1.ourSig = s.ourSig ∧ (combineSig th c s S).1.msg = s.msg ∧
    (combineSig th c s S).1.pubNonces = s.pubNonces ∧ (combineSig th c s S).1.combinedNonce = s.combinedNonce := by
  unfold combineSig
  simp only
  split
  · exact ⟨rfl, rfl, rfl, rfl, rfl⟩
  · split
    · split
      · split <;> exact ⟨rfl, rfl, rfl, rfl, rfl⟩
      · exact ⟨rfl, rfl, rfl, rfl, rfl⟩
    · exact ⟨rfl, rfl, rfl, rfl, rfl⟩

theorem used_step (th : TH) (i : Nat) (w : World) (op : Op) (h : ∃ s, w.sess[i]? = some s ∧ s.localNonces = none) :
    ∃ s, (op.run th w).1.sess[i]? = some s ∧ s.localNonces = none := by
  obtain ⟨s, hs, hl⟩ := h
  obtain ⟨s', hs', hc⟩ := sess_step th w op i s hs
  refine ⟨s', hs', ?_⟩
  rcases hc with rfl | ⟨n, -, rfl⟩ | ⟨m, o, -, rfl⟩ | ⟨S, -, rfl⟩
  · exact hl
  · rw [(registerPubNonce_keeps _ _ _).1]; exact hl
  · rw [sessSign_none hl]; exact hl
  · rw [(combineSig_keeps _ _ _ _).1]; exact hl

/-- **C99.** A session signs at most once: after a call of Sign that made a signature or failed while signing, every later Sign of that session,
after any history of calls, is refused with ErrSigningContextReuse. -/
theorem C99_sign_once (th : TH) (w : World) (i : Nat) (msg : Bytes) (o : SignOpts) (r : Res CErr PSig)
    (h : ((Op.sign i msg o).run th w).2 = .sig r) (hp : r ≠ .panic) (hc : r ≠ .err .combinedNonceUnavailable) (later : List Op)
    (msg' : Bytes) (o' : SignOpts) :
    ((Op.sign i msg' o').run th (runAll th ((Op.sign i msg o).run th w).1 later)).2 = .sig (.err .signingContextReuse) := by
  have hu : ∃ s, ((Op.sign i msg o).run th w).1.sess[i]? = some s ∧ s.localNonces = none := by
    cases hs : w.sess[i]? with
    | none => unfold Op.run at h; simp only [hs] at h; cases h
    | some s =>
      have hlt : i < w.sess.length := (List.getElem?_eq_some_iff.1 hs).1
      unfold Op.run at h ⊢
      simp only [hs] at h ⊢
      injection h with h
      rw [List.getElem?_set_self hlt]
      refine ⟨_, rfl, ?_⟩
      unfold sessSign at h ⊢
      split at h
      · rename_i hl; simp only; exact hl
      · exact absurd h.symm hc
      · rename_i n cn hl hcn
        simp only at h ⊢
        cases hr : Musig2.sign th n.sec w.ctx.d cn w.ctx.keySet msg (w.ctx.signOpts o) with
        | panic => rw [hr] at h; exact absurd h.symm hp
        | err e => rfl
        | ok q => rfl
  have := runAll_induct (P := fun w => ∃ s, w.sess[i]? = some s ∧ s.localNonces = none) (fun w op => used_step th i w op) later _ hu
  obtain ⟨s, hs, hl⟩ := this
  generalize runAll th _ later = w' at hs ⊢
  unfold Op.run
  simp only [hs]
  rw [sessSign_none hl]

/-- **C99.** After a session has signed, PublicNonce panics (it dereferences the nonce that was dropped). -/
theorem C99_public_nonce_panics (th : TH) (c : Ctx) (s : Sess) (msg : Bytes) (o : SignOpts) (q : PSig) (c' : Ctx) (s' : Sess)
    (h : sessSign th c s msg o = (c', s', .ok q)) : s'.publicNonce = .panic := by
  unfold sessSign at h
  split at h
  · simp at h
  · simp at h
  · simp only at h
    split at h
    · simp at h
    · simp at h
    · injection h with _ h
      injection h with h _
      rw [← h]
      rfl

theorem combineSignerKeys_fields (th : TH) (c : Ctx) : (combineSignerKeys th c).1.early = c.early ∧
    (combineSignerKeys th c).1.numSigners = c.numSigners ∧ (combineSignerKeys th c).1.sort = c.sort ∧
    (combineSignerKeys th c).1.tweakOpt = c.tweakOpt ∧ (combineSignerKeys th c).1.pubKey = c.pubKey ∧
    (combineSignerKeys th c).1.d = c.d ∧ (combineSignerKeys th c).1.keySet.Perm c.keySet := by
  unfold combineSignerKeys
  simp only
  split
  · exact ⟨rfl, rfl, rfl, rfl, rfl, rfl, List.Perm.refl _⟩
  · split <;> exact ⟨rfl, rfl, rfl, rfl, rfl, rfl, maybeSort_perm _ _⟩

theorem registerSigner_early (th : TH) (c : Ctx) (k : Pt) : (registerSigner th c k).1.early = c.early := by
  unfold registerSigner
  simp only
  split
  · rfl
  · split
    · have := (combineSignerKeys_fields th { c with keySet := c.keySet ++ [k] }).1
      split <;> (rename_i h; rw [h] at this; exact this)
    · rfl

theorem early_step (th : TH) (w : World) (op : Op) (h : w.ctx.early = none) : (op.run th w).1.ctx.early = none := by
  cases op with
  | registerSigner pub => exact (registerSigner_early th w.ctx pub).trans h
  | newSession ext rand =>
    have : (newSession th w.ctx ext rand).1.early = none := by
      unfold newSession
      simp only
      rw [h]
      simp only
      cases ext with
      | some n => simp only; split <;> exact h
      | none =>
        simp only
        split
        · exact h
        · split
          · exact h
          · split <;> exact h
    unfold Op.run
    simp only
    split <;> exact this
  | registerNonce j n => unfold Op.run; simp only; split <;> exact h
  | sign j m o =>
    unfold Op.run
    simp only
    split
    · exact h
    · simp only
      unfold sessSign
      split
      · exact h
      · exact h
      · simp only; split <;> exact h
  | combine j S => unfold Op.run; simp only; split <;> exact h

/-- **C99.** The early nonce of a context goes into one session only: once a session was made, EarlySessionNonce is an error for good, and every
later session uses the nonce passed to it or one generated from fresh randomness, the private key and the combined key. -/
theorem C99_early_nonce_once (th : TH) (w : World) (ext : Option Nonces) (rand : Option Bytes) (s : Sess)
    (h : ((Op.newSession ext rand).run th w).2 = .session (.ok s)) (later : List Op) :
    (runAll th ((Op.newSession ext rand).run th w).1 later).ctx.earlySessionNonce = .error .noEarlyNonce ∧
    ∀ ext' rand' s', ((Op.newSession ext' rand').run th (runAll th ((Op.newSession ext rand).run th w).1 later)).2 = .session (.ok s') →
      (∀ n, ext' = some n → s'.localNonces = some n) ∧
      (ext' = none → ∃ Q, (runAll th ((Op.newSession ext rand).run th w).1 later).ctx.combinedKey = .ok Q ∧
        s'.localNonces = genPair th rand'
          ⟨putBytes (runAll th ((Op.newSession ext rand).run th w).1 later).ctx.d.val, serializePubKey Q, [], []⟩) := by
  have h0 : ((Op.newSession ext rand).run th w).1.ctx.early = none := by
    have : (newSession th w.ctx ext rand).1.early = none := by
      unfold Op.run at h
      simp only at h
      have h' : (newSession th w.ctx ext rand).2 = .ok s := by
        split at h
        · injection h
        · injection h
      unfold newSession at h' ⊢
      simp only at h' ⊢
      split
      · rename_i hf; rw [if_pos hf] at h'; cases h'
      · rename_i hf
        rw [if_neg hf] at h'
        cases he : w.ctx.early with
        | some n => rfl
        | none =>
          simp only
          split
          · exact he
          · split
            · exact he
            · split <;> exact he
    unfold Op.run
    simp only
    split <;> exact this
  have hl := runAll_induct (P := fun w => w.ctx.early = none) (fun w op => early_step th w op) later _ h0
  generalize runAll th _ later = w' at hl ⊢
  refine ⟨by unfold Ctx.earlySessionNonce; rw [hl], ?_⟩
  intro ext' rand' s' hs'
  have h' : (newSession th w'.ctx ext' rand').2 = .ok s' := by
    unfold Op.run at hs'
    simp only at hs'
    split at hs'
    · injection hs'
    · injection hs'
  unfold newSession at h'
  simp only at h'
  split at h'
  · cases h'
  · rw [hl] at h'
    simp only at h'
    cases ext' with
    | some n =>
      simp only at h'
      injection h' with h'
      refine ⟨fun m hm => ?_, fun hm => (by cases hm)⟩
      injection hm with hm
      rw [← h', hm]
    | none =>
      simp only at h'
      refine ⟨fun m hm => (by cases hm), fun _ => ?_⟩
      split at h'
      · cases h'
      · rename_i ag hag
        refine ⟨ag.final, by unfold Ctx.combinedKey; rw [hag], ?_⟩
        split at h'
        · cases h'
        · rename_i n hn
          injection h' with h'
          rw [hn, ← h']

/-- **C99.** Nothing protects a nonce the caller supplies: passed to WithPreGeneratedNonce twice it is in two sessions. -/
theorem C99_pregenerated_nonce_shared (th : TH) (w : World) (n : Nonces) (r r' : Option Bytes) (hf : w.ctx.full = true)
    (he : w.ctx.early = none) : ∃ s s', (runAll th w [.newSession (some n) r, .newSession (some n) r']).sess = w.sess ++ [s, s'] ∧
      s.localNonces = some n ∧ s'.localNonces = some n := by
  have hns : ∀ (c : Ctx) (r : Option Bytes), c.full = true → c.early = none →
      newSession th c (some n) r = (c, .ok ⟨some n, [n.pub], none, List.replicate 32 0, none, [], none⟩) := by
    intro c r hf he
    unfold newSession
    simp only
    rw [hf, he]
    rfl
  refine ⟨⟨some n, [n.pub], none, List.replicate 32 0, none, [], none⟩, ⟨some n, [n.pub], none, List.replicate 32 0, none, [], none⟩,
    ?_, rfl, rfl⟩
  rw [runAll_cons, runAll_cons]
  unfold Op.run
  simp only [hns w.ctx r hf he, hns w.ctx r' hf he]
  rw [List.append_assoc]
  rfl

/-! ### Contexts -/

theorem full_iff (c : Ctx) : c.full = true ↔ (c.keySet.length : Int) = c.numSigners := by unfold Ctx.full; exact beq_iff_eq

theorem maybeSort_length (b : Bool) (l : List Pt) : (maybeSort b l).length = l.length := (maybeSort_perm b l).length_eq

theorem sortKeys_idem (l : List Pt) : sortKeys (sortKeys l) = sortKeys l := by
  unfold sortKeys
  exact (List.pairwise_insertionSort (fun a b : Pt => (!keyLess b a) = true) l).insertionSort_eq

theorem aggregate_sorted (th : TH) (l : List Pt) (opt : TweakOpt) (b : Bool) :
    aggregateKeys th (maybeSort b l) false opt = aggregateKeys th (maybeSort b l) b opt := by
  cases b with
  | false => rfl
  | true =>
    unfold aggregateKeys maybeSort
    simp only [if_true, Bool.false_eq_true, if_false]
    rw [sortKeys_idem]

/-- What holds of the context in every reachable world. -/
structure WInv (th : TH) (w : World) : Prop where
  own : w.ctx.pubKey ∈ w.ctx.keySet
  key : w.ctx.pubKey = even (mulG w.ctx.d) ∧ w.ctx.d ≠ 0
  full : w.sess ≠ [] → w.ctx.full = true
  comb : ∀ ag, w.ctx.combined = some ag → w.ctx.full = true ∧ ∃ keys, keys.Perm w.ctx.keySet ∧
    aggregateKeys th keys w.ctx.sort w.ctx.tweakOpt = .ok ag

theorem combineSignerKeys_ok {th : TH} {c c' : Ctx} (h : combineSignerKeys th c = (c', .ok ())) :
    c.pubKey ∈ c.keySet ∧ ∃ ag, aggregateKeys th (maybeSort c.sort c.keySet) c.sort c.tweakOpt = .ok ag ∧
      c' = { c with keySet := maybeSort c.sort c.keySet, combined := some ag } := by
  unfold combineSignerKeys at h
  simp only at h
  split at h
  · injection h with _ h; cases h
  · rename_i hm
    split at h
    · rename_i ag hag
      injection h with h _
      exact ⟨not_not.1 hm, ag, hag, h.symm⟩
    · injection h with _ h; cases h
    · injection h with _ h; cases h

theorem combineSignerKeys_any (th : TH) (c : Ctx) (hn : c.combined = none) :
    (combineSignerKeys th c).1.combined = none ∨ ∃ ag, (combineSignerKeys th c).1.combined = some ag ∧
      (combineSignerKeys th c).2 = .ok () := by
  unfold combineSignerKeys
  simp only
  split
  · exact Or.inl hn
  · split
    · rename_i ag hag
      exact Or.inr ⟨ag, rfl, rfl⟩
    · exact Or.inl rfl
    · exact Or.inl hn

theorem newContext_ok {th : TH} {d : Sc} {sort : Bool} {o : CtxOpts} {rand : Option Bytes} {c : Ctx}
    (h : newContext th d sort o rand = .ok c) : d ≠ 0 ∧ c.d = d ∧ c.pubKey = even (mulG d) ∧ c.sort = sort ∧ c.numSigners = o.numSigners ∧
      c.tweaks = o.tweaks ∧ c.taproot = o.taproot ∧ c.bip86 = o.bip86 ∧
      ((∃ ks ag, o.keySet = some ks ∧ even (mulG d) ∈ ks ∧ c.keySet = maybeSort sort ks ∧ c.combined = some ag ∧ c.early = none ∧
        aggregateKeys th (maybeSort sort ks) sort c.tweakOpt = .ok ag) ∨
       (o.keySet = none ∧ 0 < o.numSigners ∧ c.keySet = [even (mulG d)] ∧ c.combined = none ∧
        c.early = if o.earlyNonce then genPair th rand ⟨[], [], [], []⟩ else none)) := by
  have hd : d ≠ 0 := by
    intro h0
    unfold newContext at h
    obtain ⟨e, he⟩ := parseXOnly_zero
    have : mulG d = 0 := by rw [mulG_eq, h0]; exact (zero_smul Sc G : (0 : Sc) • G = 0)
    rw [this, serialize_eq, he] at h
    cases h
  unfold newContext at h
  rw [serialize_eq, parseXOnly_xb (mulG_ne hd)] at h
  generalize even (mulG d) = K at h ⊢
  simp only at h
  split at h
  · rename_i ks hks
    split at h
    · rename_i c' hc
      obtain ⟨h1, ag, h2, h3⟩ := combineSignerKeys_ok hc
      injection h with h
      subst h
      subst h3
      exact ⟨hd, rfl, rfl, rfl, rfl, rfl, rfl, rfl, Or.inl ⟨ks, ag, hks, h1, rfl, rfl, rfl, h2⟩⟩
    · cases h
    · cases h
  · rename_i hks
    split at h
    · cases h
    · rename_i h0
      split at h
      · cases h
      · rename_i h1
        split at h
        · rename_i hen
          split at h
          · cases h
          · rename_i n hn
            injection h with h
            subst h
            exact ⟨hd, rfl, rfl, rfl, rfl, rfl, rfl, rfl, Or.inr ⟨hks, by omega, rfl, rfl, by rw [if_pos hen, hn]⟩⟩
        · rename_i hen
          injection h with h
          subst h
          exact ⟨hd, rfl, rfl, rfl, rfl, rfl, rfl, rfl, Or.inr ⟨hks, by omega, rfl, rfl, by rw [if_neg hen]⟩⟩

theorem registerSigner_cases (th : TH) (c : Ctx) (k : Pt) :
    (c.full = true ∧ registerSigner th c k = (c, .err .alreadyHaveAllSigners)) ∨
    (c.full = false ∧ { c with keySet := c.keySet ++ [k] }.full = false ∧
      registerSigner th c k = ({ c with keySet := c.keySet ++ [k] }, .ok false)) ∨
    (c.full = false ∧ { c with keySet := c.keySet ++ [k] }.full = true ∧
      (registerSigner th c k).1 = (combineSignerKeys th { c with keySet := c.keySet ++ [k] }).1 ∧
      ((registerSigner th c k).2 = .ok true ↔ (combineSignerKeys th { c with keySet := c.keySet ++ [k] }).2 = .ok ()) ∧
      (registerSigner th c k).2 ≠ .ok false) := by
  unfold registerSigner
  simp only
  cases hf : c.full with
  | true => exact Or.inl ⟨rfl, by rw [if_pos rfl]⟩
  | false =>
    rw [if_neg (by simp)]
    cases hf' : ({ c with keySet := c.keySet ++ [k] } : Ctx).full with
    | false => exact Or.inr (Or.inl ⟨rfl, rfl, by rw [if_neg (by simp)]⟩)
    | true =>
      refine Or.inr (Or.inr ⟨rfl, rfl, ?_⟩)
      rw [if_pos rfl]
      split <;> (rename_i h; rw [h]; simp)

theorem sessSign_ctx (th : TH) (c : Ctx) (s : Sess) (m : Bytes) (o : SignOpts) :
    (sessSign th c s m o).1 = c ∨ (sessSign th c s m o).1 = { c with keySet := maybeSort o.sort c.keySet } := by
  unfold sessSign
  split
  · exact Or.inl rfl
  · exact Or.inl rfl
  · simp only
    split <;> exact Or.inr rfl

theorem newSession_ctx (th : TH) (c : Ctx) (ext : Option Nonces) (rand : Option Bytes) :
    ∃ e, (newSession th c ext rand).1 = { c with early := e } ∧ ∀ s, (newSession th c ext rand).2 = .ok s → c.full = true ∧
      ∃ n, s = ⟨some n, [n.pub], none, List.replicate 32 0, none, [], none⟩ := by
  unfold newSession
  simp only
  cases hf : c.full with
  | false => exact ⟨c.early, rfl, by intro s hs; cases hs⟩
  | true =>
    simp only [Bool.not_true, Bool.false_eq_true, if_false]
    split
    · exact ⟨none, rfl, fun s hs => ⟨trivial, _, by injection hs with hs; exact hs.symm⟩⟩
    · split
      · exact ⟨c.early, rfl, fun s hs => ⟨trivial, _, by injection hs with hs; exact hs.symm⟩⟩
      · split
        · exact ⟨c.early, rfl, fun s hs => by cases hs⟩
        · split
          · exact ⟨c.early, rfl, fun s hs => by cases hs⟩
          · exact ⟨c.early, rfl, fun s hs => ⟨trivial, _, by injection hs with hs; exact hs.symm⟩⟩

theorem winv_start {th : TH} {w : World} (h : spec.Start th w) : WInv th w := by
  obtain ⟨d, sort, o, rand, hc, hs, ho⟩ := h
  obtain ⟨hd, h1, h2, h3, h4, -, -, -, h5⟩ := newContext_ok hc
  rcases h5 with ⟨ks, ag, k1, k2, k3, k4, -, k5⟩ | ⟨k1, k2, k3, k4, -⟩
  · refine ⟨?_, ⟨by rw [h1, h2], by rw [h1]; exact hd⟩, fun h => absurd hs h, fun ag' hag => ?_⟩
    · rw [h2, k3]; exact (maybeSort_perm _ _).mem_iff.2 k2
    · rw [k4] at hag
      injection hag with hag
      subst hag
      refine ⟨?_, _, List.Perm.refl _, by rw [k3, h3]; exact k5⟩
      rw [full_iff, h4, k3, maybeSort_length]
      rcases ho with ho | ⟨ks', ho, hn⟩
      · rw [ho] at k1; cases k1
      · rw [ho] at k1; injection k1 with k1; rw [hn, k1]
  · refine ⟨by rw [h2, k3]; simp, ⟨by rw [h1, h2], by rw [h1]; exact hd⟩, fun h => absurd hs h, fun ag hag => ?_⟩
    rw [k4] at hag; cases hag

theorem set_ne_nil {α : Type} {l : List α} {i : Nat} {a : α} (h : l.set i a ≠ []) : l ≠ [] := by
  rintro rfl; exact h rfl

theorem winv_step (th : TH) (w : World) (op : Op) (h : WInv th w) : WInv th (op.run th w).1 := by
  obtain ⟨h1, h0, h2, h3⟩ := h
  cases op with
  | registerSigner pub =>
    change WInv th ⟨(registerSigner th w.ctx pub).1, w.sess⟩
    rcases registerSigner_cases th w.ctx pub with ⟨hf, he⟩ | ⟨hf, hf', he⟩ | ⟨hf, hf', he, hok, -⟩
    · rw [he]; exact ⟨h1, h0, h2, h3⟩
    · rw [he]
      refine ⟨List.mem_append_left _ h1, h0, fun h => ?_, fun ag hag => ?_⟩
      · have := h2 h; rw [hf] at this; cases this
      · have := (h3 ag hag).1; rw [hf] at this; cases this
    · rw [he]
      obtain ⟨f1, f2, f3, f4, f5, f6, f7⟩ := combineSignerKeys_fields th { w.ctx with keySet := w.ctx.keySet ++ [pub] }
      have hfull : (combineSignerKeys th { w.ctx with keySet := w.ctx.keySet ++ [pub] }).1.full = true := by
        rw [full_iff] at hf' ⊢
        rw [f2, f7.length_eq]; exact hf'
      have hcn : w.ctx.combined = none := by
        cases hc : w.ctx.combined with
        | none => rfl
        | some ag => have := (h3 ag hc).1; rw [hf] at this; cases this
      refine ⟨?_, by rw [f5, f6]; exact h0, fun _ => hfull, fun ag hag => ⟨hfull, ?_⟩⟩
      · rw [f5]; exact f7.mem_iff.2 (List.mem_append_left _ h1)
      · rcases combineSignerKeys_any th { w.ctx with keySet := w.ctx.keySet ++ [pub] } hcn with hn | ⟨ag', -, hok'⟩
        · rw [hn] at hag; cases hag
        · obtain ⟨-, ag'', g2, g3⟩ := combineSignerKeys_ok (c' := (combineSignerKeys th { w.ctx with keySet := w.ctx.keySet ++ [pub] }).1)
            (th := th) (c := { w.ctx with keySet := w.ctx.keySet ++ [pub] }) (Prod.ext rfl hok')
          rw [g3] at hag ⊢
          injection hag with hag
          subst hag
          exact ⟨_, List.Perm.refl _, g2⟩
  | newSession ext rand =>
    obtain ⟨e, he, hok⟩ := newSession_ctx th w.ctx ext rand
    unfold Op.run
    simp only
    rw [he]
    split
    · rename_i s hs
      exact ⟨h1, h0, fun _ => (hok s hs).1, h3⟩
    · exact ⟨h1, h0, h2, h3⟩
  | registerNonce j n =>
    unfold Op.run
    simp only
    split
    · exact ⟨h1, h0, h2, h3⟩
    · exact ⟨h1, h0, fun h => h2 (set_ne_nil h), h3⟩
  | sign j m o =>
    unfold Op.run
    simp only
    split
    · exact ⟨h1, h0, h2, h3⟩
    · rename_i s hs
      rcases sessSign_ctx th w.ctx s m o with he | he
      · rw [he]; exact ⟨h1, h0, fun h => h2 (set_ne_nil h), h3⟩
      · rw [he]
        have hp := maybeSort_perm o.sort w.ctx.keySet
        have hfull : ∀ _ : w.ctx.full = true, ({ w.ctx with keySet := maybeSort o.sort w.ctx.keySet } : Ctx).full = true := by
          intro h
          rw [full_iff] at h ⊢
          simp only [maybeSort_length]; exact h
        refine ⟨hp.mem_iff.2 h1, h0, fun h => hfull (h2 (set_ne_nil h)), fun ag hag => ?_⟩
        obtain ⟨g1, keys, g2, g3⟩ := h3 ag hag
        exact ⟨hfull g1, keys, g2.trans hp.symm, g3⟩
  | combine j S =>
    unfold Op.run
    simp only
    split
    · exact ⟨h1, h0, h2, h3⟩
    · exact ⟨h1, h0, fun h => h2 (set_ne_nil h), h3⟩

theorem winv {th : TH} {w : World} (h : spec.Reach th w) : WInv th w :=
  reach_induct (fun _ => winv_start) (fun w op => winv_step th w op) h

/-- **C99.** In every reachable world the combined key, once there, is the aggregate (with the context's tweaks) of all the registered keys, the
signer's own even-y key among them, and their number is the number announced. -/
theorem C99_combined_key (th : TH) (w : World) (h : spec.Reach th w) (Q : Pt) (hQ : w.ctx.combinedKey = .ok Q) :
    even (mulG w.ctx.d) ∈ w.ctx.keySet ∧ (w.ctx.keySet.length : Int) = w.ctx.numSigners ∧
    ∃ ag keys, keys.Perm w.ctx.keySet ∧ aggregateKeys th keys w.ctx.sort w.ctx.tweakOpt = .ok ag ∧ ag.final = Q ∧
      (w.ctx.sort = true → aggregateKeys th w.ctx.keySet true w.ctx.tweakOpt = .ok ag) := by
  obtain ⟨h1, h0, -, h3⟩ := winv h
  unfold Ctx.combinedKey at hQ
  split at hQ
  · cases hQ
  · rename_i ag hag
    injection hQ with hQ
    obtain ⟨hf, keys, hp, hk⟩ := h3 ag hag
    refine ⟨h0.1 ▸ h1, (full_iff _).1 hf, ag, keys, hp, hk, hQ, fun hs => ?_⟩
    rw [hs] at hk
    rw [← hk]
    exact C96_order_irrelevant th _ _ hp.symm _

end Tss.Musig2
