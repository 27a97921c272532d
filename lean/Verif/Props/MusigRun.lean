import Verif.Props.MusigStuck
/-
C99, last part: a session that is driven as the package intends ends with a valid signature.
-/
namespace Tss.Musig2
open Tss Tss.Bip340
open Tss.Secp (E p ord G pt point_cases G_ne_zero)

namespace spec

/-- The calls one participant makes on the session i after NewSession: the others' nonces, its own Sign, and the others' partial signatures,
in any order. -/
def calls (i : Nat) (others late : List Part) (msg : Bytes) (o : SignOpts) : List Op :=
  others.map (fun q => Op.registerNonce i q.pub) ++ Op.sign i msg o :: late.map (fun q => Op.combine i q.S)

end spec

theorem at_end (pre : List Sess) (s : Sess) : (pre ++ [s])[pre.length]? = some s := by simp

theorem set_end (pre : List Sess) (s s' : Sess) : (pre ++ [s]).set pre.length s' = pre ++ [s'] := by simp

theorem reg_run (th : TH) (c : Ctx) (pre : List Sess) (cn : Bytes) : ∀ (bs : List Bytes) (s : Sess), bs ≠ [] →
    ((s.pubNonces.length + bs.length : Nat) : Int) = c.numSigners → aggregateNonces (s.pubNonces ++ bs) = .ok cn →
    runAll th ⟨c, pre ++ [s]⟩ (bs.map (Op.registerNonce pre.length)) =
      ⟨c, pre ++ [{ s with pubNonces := s.pubNonces ++ bs, combinedNonce := some cn }]⟩
  | [], _, h, _, _ => absurd rfl h
  | b :: bs, s, _, hl, ha => by
    rw [List.map_cons, runAll_cons]
    have hstep : ((Op.registerNonce pre.length b).run th ⟨c, pre ++ [s]⟩).1 = ⟨c, pre ++ [(registerPubNonce c s b).1]⟩ := by
      unfold Op.run
      simp only [at_end, set_end]
    rw [hstep]
    have hne : ¬ (s.pubNonces.length : Int) = c.numSigners := by
      rw [← hl, List.length_cons]; omega
    cases bs with
    | nil =>
      have hlen : ((s.pubNonces ++ [b]).length : Int) = c.numSigners := by rw [← hl]; simp
      unfold registerPubNonce
      simp only
      rw [if_neg hne, if_pos hlen, ha]
      rfl
    | cons b' bs =>
      have hlen : ¬ ((s.pubNonces ++ [b]).length : Int) = c.numSigners := by rw [← hl]; simp; omega
      have hr : (registerPubNonce c s b).1 = { s with pubNonces := s.pubNonces ++ [b] } := by
        unfold registerPubNonce
        simp only
        rw [if_neg hne, if_neg hlen]
      rw [hr]
      have ih := reg_run th c pre cn (b' :: bs) { s with pubNonces := s.pubNonces ++ [b] } (by simp)
        (by rw [← hl]; simp; omega) (by simpa using ha)
      rw [ih]
      simp only [List.append_assoc, List.singleton_append]

theorem comb_run (th : TH) (c : Ctx) (pre : List Sess) (our : PSig) (ag : Agg) (co : Option CombOpts) (hag : c.combined = some ag) :
    ∀ (ss : List Sc) (s : Sess), ss ≠ [] → s.sigs.length + ss.length = c.keySet.length → s.ourSig = some our →
    c.combineOpt th s.msg = .ok co → verify th (combineSigs th our.R (s.sigs ++ ss) co) s.msg ag.final = true →
    runAll th ⟨c, pre ++ [s]⟩ (ss.map (Op.combine pre.length)) =
      ⟨c, pre ++ [{ s with sigs := s.sigs ++ ss, finalSig := some (combineSigs th our.R (s.sigs ++ ss) co) }]⟩
  | [], _, h, _, _, _, _ => absurd rfl h
  | S :: ss, s, _, hl, ho, hco, hv => by
    rw [List.map_cons, runAll_cons]
    have hstep : ((Op.combine pre.length S).run th ⟨c, pre ++ [s]⟩).1 = ⟨c, pre ++ [(combineSig th c s S).1]⟩ := by
      unfold Op.run
      simp only [at_end, set_end]
    rw [hstep]
    have hne : ¬ s.sigs.length = c.keySet.length := by rw [← hl, List.length_cons]; omega
    cases ss with
    | nil =>
      have hlen : (s.sigs ++ [S]).length = c.keySet.length := by rw [← hl]; simp
      unfold combineSig
      simp only
      rw [if_neg hne, if_pos hlen, hco, ho, hag]
      simp only
      rw [if_pos hv]
      rfl
    | cons S' ss =>
      have hlen : ¬ (s.sigs ++ [S]).length = c.keySet.length := by rw [← hl]; simp
      have hr : (combineSig th c s S).1 = { s with sigs := s.sigs ++ [S] } := by
        unfold combineSig
        simp only
        rw [if_neg hne, if_neg hlen]
      rw [hr]
      have ih := comb_run th c pre our ag co hag (S' :: ss) { s with sigs := s.sigs ++ [S] } (by simp)
        (by rw [← hl]; simp; omega) ho hco (by simpa using hv)
      rw [ih]
      simp only [List.append_assoc, List.singleton_append]

/-- The option that a session gives to CombineSigs makes no difference to the result. -/
theorem combineOpt_spec {th : TH} {c : Ctx} {ag : Agg} (h : aggregateKeys th c.keySet c.sort c.tweakOpt = .ok ag) (msg : Bytes) :
    ∃ co, c.combineOpt th msg = .ok co ∧ ∀ R ss, combineSigs th R ss co = combineSigs th R ss (some ⟨msg, ag.final, ag.tweakAcc⟩) := by
  unfold Ctx.combineOpt
  by_cases ht : (c.bip86 || c.taproot.isSome || decide (c.tweaks.length ≠ 0)) = true
  · rw [if_pos ht]
    unfold withCombine
    rw [h]
    exact ⟨_, rfl, fun _ _ => rfl⟩
  · rw [if_neg ht]
    refine ⟨none, rfl, fun R ss => ?_⟩
    have hp : c.tweakOpt = .plain [] := by
      rw [Bool.not_eq_true, Bool.or_eq_false_iff, Bool.or_eq_false_iff] at ht
      obtain ⟨⟨h1, h2⟩, h3⟩ := ht
      have h3 : c.tweaks = [] := by
        rw [decide_eq_false_iff_not, not_not] at h3
        exact List.length_eq_zero_iff.1 h3
      have h2 : c.taproot = none := by
        cases ht : c.taproot with
        | none => rfl
        | some r => rw [ht] at h2; cases h2
      unfold Ctx.tweakOpt
      rw [h1, h2, h3]
      rfl
    rw [hp] at h
    exact (C97_combine_no_options th c.keySet c.sort ag h R ss msg).1

theorem combine_perm (th : TH) (R : Pt) {ss ss' : List Sc} (h : ss.Perm ss') (x : CombOpts) :
    combineSigs th R ss (some x) = combineSigs th R ss' (some x) := by
  obtain ⟨a, b, t⟩ := x
  rw [combine_some, combine_some, h.sum_eq]

/-- **C99.** A session driven as intended succeeds. Let a session come out of NewSession in any world reached by plain calls, with a key set
that consists of the signer's own key and the keys, of even y, of others. If each of the others contributes a public nonce and a partial
signature that verifies against them, then registering the nonces, signing and combining (in any order) leaves a final signature that
verifies under the combined key, unless the nonces cancel, the combined key is infinity or the challenge is not below the order. -/
theorem C99_honest_run (th : TH) (w : World) (h : spec.PlainReach th w) (ext : Option Nonces) (rand : Option Bytes) (s : Sess)
    (hs : ((Op.newSession ext rand).run th w).2 = .session (.ok s)) (n : Nonces) (hn : s.localNonces = some n)
    (hpub : n.pub = secNonceToPubNonce n.sec) (hn1 : beNat (n.sec.take 32) % ord ≠ 0) (hn2 : beNat (n.sec.drop 32) % ord ≠ 0)
    (Q : Pt) (hQ : w.ctx.combinedKey = .ok Q) (others : List Part) (hne : others ≠ [])
    (hkeys : w.ctx.keySet.Perm (w.ctx.pubKey :: others.map Part.key)) (hev : ∀ q ∈ others, oddY q.key = false)
    (cn : Bytes) (hcn : aggregateNonces (n.pub :: others.map Part.pub) = .ok cn) (msg : Bytes) (hm : msg.length = 32)
    (hv : ∀ q ∈ others, verifyPartial th q.S q.pub cn w.ctx.keySet q.key msg (spec.optsOf w.ctx false) = .ok ())
    (R : Pt) (hR : spec.Nonce th cn Q msg R) (hR0 : R ≠ 0) (hQ0 : Q ≠ 0) (hc : spec.chal th R Q msg < ord)
    (o : SignOpts) (ho : o.sort = true → w.ctx.sort = true) (h1 : o.tweaks = []) (h2 : o.taproot = none) (h3 : o.bip86 = false)
    (late : List Part) (hl : late.Perm others) :
    ∃ s' g, (runAll th ((Op.newSession ext rand).run th w).1 (spec.calls w.sess.length others late msg o)).sess[w.sess.length]? = some s' ∧
      s'.finalSig = some g ∧ verify th g msg Q = true ∧ g.r = xOf R := by
  obtain ⟨e, he, hmk⟩ := newSession_ctx th w.ctx ext rand
  have hns : (newSession th w.ctx ext rand).2 = .ok s := by
    unfold Op.run at hs
    simp only at hs
    split at hs
    · injection hs
    · injection hs
  obtain ⟨hfull, n', hsn⟩ := hmk s hns
  have hnn : n' = n := by rw [hsn] at hn; injection hn
  subst hnn
  have hw1 : ((Op.newSession ext rand).run th w).1 = ⟨{ w.ctx with early := e }, w.sess ++ [s]⟩ := by
    unfold Op.run
    simp only [hns, he]
  obtain ⟨w0, ops, hst, hwe, hplain⟩ := h
  have hplain' : spec.PlainReach th w := ⟨w0, ops, hst, hwe, hplain⟩
  have hsort : ∀ (l : List Op), (∀ op ∈ l, ∀ i m o, op ≠ Op.sign i m o) →
      ∀ op ∈ ops ++ l, ∀ i m o, op = Op.sign i m o → o.sort = true → w0.ctx.sort = true := by
    intro l hl op hop i m o hs ht
    rcases List.mem_append.1 hop with hop | hop
    · exact hplain op hop i m o hs ht
    · exact absurd hs (hl op hop i m o)
  rw [hw1]
  unfold spec.calls
  rw [runAll_append, runAll_cons]
  have hw := winv (PlainReach.reach hplain')
  have hlen : w.ctx.keySet.length = others.length + 1 := by rw [hkeys.length_eq]; simp
  have hreg := reg_run th { w.ctx with early := e } w.sess cn (others.map Part.pub) s (by simpa using hne)
    (by
      have := (full_iff w.ctx).1 hfull
      rw [hsn]
      simp only [List.length_cons, List.length_nil, List.length_map]
      rw [← this, hlen]
      push_cast; omega)
    (by rw [hsn]; simpa using hcn)
  rw [List.map_map] at hreg
  have hreg' : runAll th ⟨{ w.ctx with early := e }, w.sess ++ [s]⟩ (others.map fun q => Op.registerNonce w.sess.length q.pub) =
      ⟨{ w.ctx with early := e }, w.sess ++ [{ s with pubNonces := s.pubNonces ++ others.map Part.pub, combinedNonce := some cn }]⟩ := hreg
  rw [hreg']
  -- the world before Sign is plain reachable
  have hp2 : spec.PlainReach th ⟨{ w.ctx with early := e }, w.sess ++ [{ s with pubNonces := s.pubNonces ++ others.map Part.pub, combinedNonce := some cn }]⟩ := by
    refine ⟨w0, ops ++ (Op.newSession ext rand :: others.map fun q => Op.registerNonce w.sess.length q.pub), hst, ?_, hsort _ ?_⟩
    · rw [runAll_append, ← hwe, runAll_cons, hw1, hreg']
    · intro op hop i m o
      rcases List.mem_cons.1 hop with rfl | hop
      · intro hh; cases hh
      · obtain ⟨q, -, rfl⟩ := List.mem_map.1 hop
        intro hh; cases hh
  have hag : ∃ ag, w.ctx.combined = some ag ∧ ag.final = Q := by
    unfold Ctx.combinedKey at hQ
    split at hQ
    · cases hQ
    · rename_i ag hag
      injection hQ with hQ
      exact ⟨ag, hag, hQ⟩
  obtain ⟨ag, hag, rfl⟩ := hag
  obtain ⟨hio, hms⟩ := inOrder hplain' ag hag
  have hboth : aggregateKeys th w.ctx.keySet w.ctx.sort w.ctx.tweakOpt = .ok ag := by
    rw [← hio]
    have := aggregate_sorted th w.ctx.keySet w.ctx.tweakOpt w.ctx.sort
    rw [hms] at this
    exact this.symm
  have hso : maybeSort o.sort w.ctx.keySet = w.ctx.keySet := by
    cases ho' : o.sort with
    | false => rfl
    | true => rw [← ho ho']; exact hms
  have hago : aggregateKeys th w.ctx.keySet o.sort w.ctx.tweakOpt = .ok ag := by
    cases ho' : o.sort with
    | false => exact hio
    | true => rw [← ho ho']; exact hboth
  obtain ⟨t1, t2⟩ := signOpts_tweak w.ctx o h1 h2 h3
  obtain ⟨R1, R2, hr1, hr2, hRe⟩ := hR
  obtain ⟨q, hq⟩ := (C97_sign_iff th n'.sec w.ctx.d cn w.ctx.keySet msg (w.ctx.signOpts o)).2
    ⟨hw.key.2, hn1, hn2, ⟨ag, by rw [t1, t2]; exact hago⟩, ⟨R1, hr1⟩, ⟨R2, hr2⟩⟩
  have hqR : q.R = R := by
    obtain ⟨-, -, -, ag', r1, r2, a1, a2, a3, a4, -⟩ := (sign_spec th n'.sec w.ctx.d cn w.ctx.keySet msg (w.ctx.signOpts o) q).1 hq
    rw [t1, t2, hago] at a1; injection a1 with a1; subst a1
    rw [hr1] at a2; injection a2 with a2; subst a2
    rw [hr2] at a3; injection a3 with a3; subst a3
    rw [a4, blinder_smul, ← hRe]
    unfold effNonce
    rw [if_neg hR0]
  have hss : sessSign th { w.ctx with early := e } { s with pubNonces := s.pubNonces ++ others.map Part.pub, combinedNonce := some cn } msg o =
      ({ w.ctx with early := e }, ⟨none, s.pubNonces ++ others.map Part.pub, some cn, msg, some q, [q.S], none⟩, .ok q) := by
    subst hsn
    unfold sessSign
    simp only
    have : Musig2.sign th n'.sec w.ctx.d cn w.ctx.keySet msg (Ctx.signOpts { w.ctx with early := e } o) = .ok q := hq
    rw [this]
    simp only [hso]
    rfl
  have hsign : (Op.sign w.sess.length msg o).run th ⟨{ w.ctx with early := e }, w.sess ++
      [{ s with pubNonces := s.pubNonces ++ others.map Part.pub, combinedNonce := some cn }]⟩ =
      (⟨{ w.ctx with early := e }, w.sess ++ [⟨none, s.pubNonces ++ others.map Part.pub, some cn, msg, some q, [q.S], none⟩]⟩, .sig (.ok q)) := by
    unfold Op.run
    simp only [at_end, set_end]
    rw [hss]
  -- our own partial signature
  have hown : verifyPartial th q.S (secNonceToPubNonce n'.sec) cn w.ctx.keySet w.ctx.pubKey msg (spec.optsOf w.ctx false) = .ok () := by
    obtain ⟨s2, n2, cn2, g1, g2, g3, g4, -⟩ := C99_signs_for_combined_key th _ hp2 w.sess.length msg o q ho h1 h2 h3
      (by rw [hsign]) ag.final hQ
    rw [at_end] at g1
    injection g1 with g1
    subst g1
    rw [hn] at g2
    injection g2 with g2
    injection g3 with g3
    subst g2 g3
    exact g4 false
  rw [hsign]
  simp only
  -- all the parts, in the order of the key set
  obtain ⟨parts, hpp, hpk⟩ : ∃ parts : List Part, parts.Perm (⟨w.ctx.pubKey, n'.pub, q.S⟩ :: others) ∧ parts.map Part.key = w.ctx.keySet := by
    have hf : List.Forall₂ (fun (k : Pt) (q : Part) => q.key = k) (w.ctx.pubKey :: others.map Part.key)
        ((⟨w.ctx.pubKey, n'.pub, q.S⟩ : Part) :: others) := by
      refine .cons rfl ?_
      rw [List.forall₂_map_left_iff]
      exact List.forall₂_same.2 fun _ _ => rfl
    obtain ⟨parts, f1, f2⟩ := List.perm_comp_forall₂ hkeys hf
    refine ⟨parts, f2, ?_⟩
    clear hf f2 hkeys hv hown hq hss hsign hso hago hboth hio hms hlen
    generalize w.ctx.keySet = ks at f1
    induction f1 with
    | nil => rfl
    | cons h _ ih => rw [List.map_cons, ih, h]
  have hpn : aggregateNonces (parts.map Part.pub) = .ok cn :=
    C98_order_irrelevant _ _ (hpp.map Part.pub).symm _ (by simpa using hcn)
  have hevk : ∀ r ∈ parts, oddY r.key = false := by
    intro r hr
    rcases List.mem_cons.1 (hpp.mem_iff.1 hr) with rfl | hr
    · rw [hw.key.1]; exact oddY_even _
    · exact hev r hr
  have hvp : ∀ r ∈ parts, verifyPartial th r.S r.pub cn w.ctx.keySet r.key msg (spec.optsOf w.ctx false) = .ok () := by
    intro r hr
    rcases List.mem_cons.1 (hpp.mem_iff.1 hr) with rfl | hr
    · simp only; rw [hpub]; exact hown
    · exact hv r hr
  have hfin := C97_combine th parts msg cn (spec.optsOf w.ctx false) ag R hm hpn (by rw [hpk]; exact hboth) hevk ⟨R1, R2, hr1, hr2, hRe⟩
    hR0 hQ0 hc (by rw [hpk]; exact hvp)
  have hperm : (parts.map Part.S).Perm ([q.S] ++ late.map Part.S) :=
    (hpp.map Part.S).trans (List.Perm.cons _ (hl.map Part.S).symm)
  obtain ⟨co, hco, hcs⟩ := combineOpt_spec hboth msg
  rw [combine_perm th R hperm, ← hcs] at hfin
  have hcomb := comb_run th { w.ctx with early := e } w.sess q ag co hag (late.map Part.S)
    ⟨none, s.pubNonces ++ others.map Part.pub, some cn, msg, some q, [q.S], none⟩
    (by
      intro h0
      have := hl.length_eq
      rw [List.map_eq_nil_iff.1 h0] at this
      exact hne (List.length_eq_zero_iff.1 this.symm))
    (by simp only [List.length_cons, List.length_nil, List.length_map]; rw [hl.length_eq, hlen]; omega)
    rfl hco (by rw [hqR]; exact hfin)
  rw [List.map_map] at hcomb
  refine ⟨⟨none, s.pubNonces ++ others.map Part.pub, some cn, msg, some q, [q.S] ++ late.map Part.S,
    some (combineSigs th R ([q.S] ++ late.map Part.S) co)⟩, _, ?_, rfl, hfin, ?_⟩
  rotate_left
  · rw [hcs]; unfold combineSigs; rfl
  · have : (runAll th ⟨{ w.ctx with early := e }, w.sess ++ [⟨none, s.pubNonces ++ others.map Part.pub, some cn, msg, some q, [q.S], none⟩]⟩
        (late.map fun q => Op.combine w.sess.length q.S)) = _ := hcomb
    rw [this, hqR]
    exact at_end _ _

/-- The default options of Sign. -/
def defaultOpts : SignOpts := ⟨false, false, [], none, false⟩

/-- **C99.** Honest participants who know each other's keys succeed: each of the others signs (in its own context, with the same key set and
tweaks); one participant creates its context and a session with its own nonce, registers the others' nonces, signs, and combines the
others' partial signatures in any order; its FinalSig then is a signature that verifies under the combined key. -/
theorem C99_honest_group (th : TH) (me : Signer) (others : List Signer) (hu : ∀ s ∈ me :: others, s.Usable) (hne : others ≠ [])
    (sort : Bool) (o : CtxOpts) (keys : List Pt) (hk : o.keySet = some keys) (hnum : o.numSigners = keys.length)
    (hp : keys.Perm ((me :: others).map fun s => even (mulG s.d))) (rand : Option Bytes) (c : Ctx)
    (hc : newContext th me.d sort o rand = .ok c) (msg : Bytes) (hm : msg.length = 32) :
    ∃ cn Q R parts, aggregateNonces ((me :: others).map fun s => secNonceToPubNonce s.sec) = .ok cn ∧ c.combinedKey = .ok Q ∧
      spec.Nonce th cn Q msg R ∧
      List.Forall₂ (fun (s : Signer) (q : Part) => q.key = even (mulG s.d) ∧ q.pub = secNonceToPubNonce s.sec ∧
        ∃ R', sign th s.sec s.d cn c.keySet msg (spec.optsOf c false) = .ok ⟨q.S, R'⟩) others parts ∧
      (R ≠ 0 → Q ≠ 0 → spec.chal th R Q msg < ord → ∀ late, late.Perm parts → ∃ s g,
        (runAll th ⟨c, []⟩ (Op.newSession (some ⟨secNonceToPubNonce me.sec, me.sec⟩) none ::
          spec.calls 0 parts late msg defaultOpts)).sess[0]? = some s ∧ s.finalSig = some g ∧ verify th g msg Q = true ∧ g.r = xOf R) := by
  have hn := honest_nonces (me :: others) hu
  generalize hcn : jacobianToBytes ((me :: others).map fun s => (setBytes (s.sec.take 32)).1 • G).sum ++
       jacobianToBytes ((me :: others).map fun s => (setBytes (s.sec.drop 32)).1 • G).sum = cn at hn
  generalize ((me :: others).map fun s => (setBytes (s.sec.take 32)).1 • G).sum = R1 at hcn
  generalize ((me :: others).map fun s => (setBytes (s.sec.drop 32)).1 • G).sum = R2 at hcn
  have e1 : parseJacobian (cn.take 33) = .ok R1 := by rw [← hcn, jac_take]; exact parseJacobian_toBytes _
  have e2 : parseJacobian (cn.drop 33) = .ok R2 := by rw [← hcn, jac_drop]; exact parseJacobian_toBytes _
  obtain ⟨hd, c1, c2, c3, c4, -, -, -, c5⟩ := newContext_ok hc
  rcases c5 with ⟨ks, ag, k1, k2, k3, k4, k6, k5⟩ | ⟨k1, -⟩
  swap
  · rw [hk] at k1; cases k1
  rw [hk] at k1
  injection k1 with k1
  subst k1
  have hstart : spec.Start th ⟨c, []⟩ := ⟨me.d, sort, o, rand, hc, rfl, Or.inr ⟨keys, hk, hnum⟩⟩
  have hplain : spec.PlainReach th ⟨c, []⟩ := ⟨⟨c, []⟩, [], hstart, rfl, by simp⟩
  obtain ⟨hio, hms⟩ := inOrder hplain ag k4
  have hio : aggregateKeys th c.keySet false c.tweakOpt = .ok ag := hio
  have hms : maybeSort c.sort c.keySet = c.keySet := hms
  have hboth : aggregateKeys th c.keySet c.sort c.tweakOpt = .ok ag := by
    rw [← hio]
    have := aggregate_sorted th c.keySet c.tweakOpt c.sort
    rw [hms] at this
    exact this.symm
  have hQ : c.combinedKey = .ok ag.final := by unfold Ctx.combinedKey; rw [k4]
  have hsig : ∀ s ∈ others, ∃ q : Part, q.key = even (mulG s.d) ∧ q.pub = secNonceToPubNonce s.sec ∧
      ∃ R', sign th s.sec s.d cn c.keySet msg (spec.optsOf c false) = .ok ⟨q.S, R'⟩ := by
    intro s hs
    have hus := hu s (by simp [hs])
    obtain ⟨q, hq⟩ := (C97_sign_iff th s.sec s.d cn c.keySet msg (spec.optsOf c false)).2
      ⟨hus.1, hus.2.1, hus.2.2, ⟨ag, hboth⟩, ⟨R1, e1⟩, ⟨R2, e2⟩⟩
    exact ⟨⟨even (mulG s.d), secNonceToPubNonce s.sec, q.S⟩, rfl, rfl, q.R, hq⟩
  obtain ⟨parts, hparts⟩ := forall₂_ex _ hsig
  refine ⟨cn, ag.final, _, parts, hn, hQ, ⟨R1, R2, e1, e2, rfl⟩, hparts, fun hR0 hQ0 hch late hl => ?_⟩
  have hfacts : parts.map Part.key = (others.map fun s => even (mulG s.d)) ∧
      parts.map Part.pub = (others.map fun s => secNonceToPubNonce s.sec) ∧
      ∀ q ∈ parts, oddY q.key = false ∧ verifyPartial th q.S q.pub cn c.keySet q.key msg (spec.optsOf c false) = .ok () := by
    clear hl hsig hn hu hp hne
    induction hparts with
    | nil => exact ⟨rfl, rfl, by simp⟩
    | @cons s q l l' h _ ih =>
      obtain ⟨i1, i2, i3⟩ := ih
      obtain ⟨q1, q2, R', q3⟩ := h
      refine ⟨by rw [List.map_cons, List.map_cons, i1, q1], by rw [List.map_cons, List.map_cons, i2, q2], ?_⟩
      intro r hr
      rcases List.mem_cons.1 hr with rfl | hr
      · rw [q1, q2]
        refine ⟨oddY_even _, ?_⟩
        have := C97_sign_verifies th _ _ _ _ _ _ _ q3
        unfold verifyPartial at this ⊢
        rw [serialize_even]
        exact this
      · exact i3 r hr
  obtain ⟨f1, f2, f3⟩ := hfacts
  have hsess : newSession th c (some ⟨secNonceToPubNonce me.sec, me.sec⟩) none = (c, .ok ⟨some ⟨secNonceToPubNonce me.sec, me.sec⟩,
      [secNonceToPubNonce me.sec], none, List.replicate 32 0, none, [], none⟩) := by
    have hf : c.full = true := ((winv ⟨_, [], hstart, rfl⟩).comb ag k4).1
    unfold newSession
    simp only [hf, k6]
    rfl
  have hne' : parts ≠ [] := by
    intro h0
    rw [h0] at hparts
    cases hparts
    exact hne rfl
  have hume := hu me (by simp)
  rw [runAll_cons]
  refine C99_honest_run th ⟨c, []⟩ hplain (some ⟨secNonceToPubNonce me.sec, me.sec⟩) none
    ⟨some ⟨secNonceToPubNonce me.sec, me.sec⟩, [secNonceToPubNonce me.sec], none, List.replicate 32 0, none, [], none⟩ ?_
    ⟨secNonceToPubNonce me.sec, me.sec⟩ rfl rfl hume.2.1 hume.2.2 ag.final hQ parts hne' ?_ (fun q hq => (f3 q hq).1) cn ?_ msg hm
    (fun q hq => (f3 q hq).2) _ ⟨R1, R2, e1, e2, rfl⟩ hR0 hQ0 hch defaultOpts (fun h => by cases h) rfl rfl rfl late hl
  · unfold Op.run
    simp only [hsess]
  · change c.keySet.Perm (c.pubKey :: _)
    rw [f1, c2, k3]
    exact (maybeSort_perm _ _).trans hp
  · rw [f2]; exact hn

/-- **C99.** Contexts made with sorting agree: if two participants announce the same keys, in whatever order, with the same tweaks, they hold the
same combined key, and, when no key is there with its opposite, the same list of keys. -/
theorem C99_same_key_set (th : TH) (d d' : Sc) (o o' : CtxOpts) (rand rand' : Option Bytes) (c c' : Ctx) (keys keys' : List Pt)
    (hk : o.keySet = some keys) (hk' : o'.keySet = some keys') (hp : keys.Perm keys') (h1 : o.tweaks = o'.tweaks)
    (h2 : o.taproot = o'.taproot) (h3 : o.bip86 = o'.bip86) (hc : newContext th d true o rand = .ok c)
    (hc' : newContext th d' true o' rand' = .ok c') :
    c.combinedKey = c'.combinedKey ∧ (∃ Q, c.combinedKey = .ok Q) ∧ ((∀ k ∈ keys, oddY k = false) → (∀ k ∈ keys, k ≠ 0) → c.keySet = c'.keySet) := by
  obtain ⟨-, -, -, s1, -, t1, t2, t3, c5⟩ := newContext_ok hc
  obtain ⟨-, -, -, s1', -, t1', t2', t3', c5'⟩ := newContext_ok hc'
  rcases c5 with ⟨ks, ag, k1, -, k3, k4, -, k5⟩ | ⟨k1, -⟩
  swap
  · rw [hk] at k1; cases k1
  rcases c5' with ⟨ks', ag', k1', -, k3', k4', -, k5'⟩ | ⟨k1', -⟩
  swap
  · rw [hk'] at k1'; cases k1'
  rw [hk] at k1; injection k1 with k1; subst k1
  rw [hk'] at k1'; injection k1' with k1'; subst k1'
  have ht : c.tweakOpt = c'.tweakOpt := by
    unfold Ctx.tweakOpt
    rw [t1, t2, t3, t1', t2', t3', h1, h2, h3]
  have hperm : (maybeSort true keys).Perm (maybeSort true keys') :=
    (maybeSort_perm _ _).trans (hp.trans (maybeSort_perm _ _).symm)
  have hag : ag = ag' := by
    rw [C96_order_irrelevant th _ _ hperm, ht, k5'] at k5
    injection k5 with k5
    exact k5.symm
  refine ⟨?_, ⟨ag.final, by unfold Ctx.combinedKey; rw [k4]⟩, fun hev hnz => ?_⟩
  · unfold Ctx.combinedKey; rw [k4, k4', hag]
  · rw [k3, k3']
    refine List.Perm.eq_of_pairwise (le := fun a b => serializePubKey a ≤ serializePubKey b) ?_ (sortKeys_sorted _) (sortKeys_sorted _) hperm
    intro a b ha hb hab hba
    have ha' : a ∈ keys := (maybeSort_perm true keys).mem_iff.1 ha
    have hb' : b ∈ keys := hp.mem_iff.2 ((maybeSort_perm true keys').mem_iff.1 hb)
    have he : serializePubKey a = serializePubKey b := List.le_antisymm hab hba
    rw [serialize_eq, serialize_eq] at he
    exact ext_of (hnz a ha') (hnz b hb') (xb_inj he) ((hev a ha').trans (hev b hb').symm)

/-- The options of the example: two known signers, sorting. -/
noncomputable def exCtxOpts : CtxOpts := ⟨[], none, false, some (exSigners.map fun s => even (mulG s.d)), 2, false⟩

/-- When a context with known signers is made. -/
theorem known_context (th : TH) (d : Sc) (hd : d ≠ 0) (ks : List Pt) (n : Int) (ag : Agg) (hmem : even (mulG d) ∈ ks)
    (hag : aggregateKeys th (maybeSort true ks) true (.plain []) = .ok ag) :
    ∃ c, newContext th d true ⟨[], none, false, some ks, n, false⟩ none = .ok c := by
  unfold newContext
  rw [serialize_eq, parseXOnly_xb (mulG_ne hd)]
  simp only
  generalize even (mulG d) = K at hmem
  unfold combineSignerKeys
  simp only
  rw [if_neg (not_not.2 hmem)]
  have : Ctx.tweakOpt ⟨d, K, true, [], none, false, maybeSort true ks, n, none, none⟩ = .plain [] := rfl
  rw [this, hag]
  exact ⟨_, rfl⟩

theorem ex_context : ∃ c, newContext oneHash 1 true exCtxOpts none = .ok c := by
  obtain ⟨ag, hag, -⟩ := ex_key
  have hag : aggregateKeys oneHash (exSigners.map fun s => even (mulG s.d)) true (.plain []) = .ok ag := hag
  refine known_context oneHash 1 one_ne_zero _ 2 ag (by unfold exSigners; simp) ?_
  rw [← hag]
  exact C96_order_irrelevant _ _ _ (maybeSort_perm _ _) _

/-- The hypotheses of `C99_honest_group` (and with them those of `C99_honest_run`) are met: two signers, the final signature is there. -/
example : ∃ c late s g Q, newContext oneHash 1 true exCtxOpts none = .ok c ∧
    (runAll oneHash ⟨c, []⟩ (Op.newSession (some ⟨secNonceToPubNonce (putBytes 1 ++ putBytes 1), putBytes 1 ++ putBytes 1⟩) none ::
      spec.calls 0 late late (List.replicate 32 0) defaultOpts)).sess[0]? = some s ∧ s.finalSig = some g ∧ c.combinedKey = .ok Q ∧
      verify oneHash g (List.replicate 32 0) Q = true := by
  obtain ⟨c, hc⟩ := ex_context
  obtain ⟨cn, Q, R, parts, h1, h2, h3, -, h5⟩ := C99_honest_group oneHash ⟨1, putBytes 1 ++ putBytes 1⟩ [⟨2, putBytes 1 ++ putBytes 1⟩]
    exSigners_usable (by simp) true exCtxOpts _ rfl (by simp [exCtxOpts, exSigners]) (List.Perm.refl _) none c hc (List.replicate 32 0) (by simp)
  have hQ : Q ≠ 0 := by
    obtain ⟨ag, hag, h0⟩ := ex_key
    have hag : aggregateKeys oneHash (exSigners.map fun s => even (mulG s.d)) true (.plain []) = .ok ag := hag
    obtain ⟨-, -, -, s1, -, t1, t2, t3, c5⟩ := newContext_ok hc
    rcases c5 with ⟨ks, ag', k1, -, k3, k4, -, k5⟩ | ⟨k1, -⟩
    · injection k1 with k1
      subst k1
      have ht : c.tweakOpt = .plain [] := by unfold Ctx.tweakOpt; rw [t1, t2, t3]; rfl
      rw [C96_order_irrelevant _ _ _ (maybeSort_perm _ _), ht, hag] at k5
      injection k5 with k5
      unfold Ctx.combinedKey at h2
      rw [k4] at h2
      injection h2 with h2
      rw [← h2, ← k5]
      exact h0
    · cases k1
  obtain ⟨s, g, g1, g2, g3, -⟩ := h5 (ex_nonce h1 h3) hQ (by unfold spec.chal; rw [oneHash_nat]; exact small_lt_ord (by norm_num)) parts (List.Perm.refl _)
  exact ⟨c, parts, s, g, Q, hc, g1, g2, h2, g3⟩

end Tss.Musig2
