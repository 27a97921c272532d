import Verif.Props.Retry
import Verif.Props.SignBlameEx
/-
C104: a garbled share message in an honest session, and the retry that repairs it.
-/
namespace Tss.Onsign
open Tss Text Wire RangeProofs Retry

variable {e : Env} {S : Session}

theorem failed_of_not_ok {o : Res Err Bytes} (h : ∀ b, o ≠ .ok b) : spec.Failed (.res o) := by
  cases o with
  | ok b => exact absurd rfl (h b)
  | err _ => trivial
  | panic => trivial

/-- C104. In an honest session the share message `w` of party `j` is overwritten by a garbled one: the last call fails; after `w`
has been handed in again, the same call returns the signature it would have returned. -/
theorem C104_garbled_share (H : Honest e S) (s : Net) (hr : Run e S s) (i j : Nat) (hi : i < S.n) (hj : j < S.n) (hij : j ≠ i)
    (h4 : s.stage i = 4) (ha : s.all S .three i) (p : Party) (h1 : s.reg (S.key i) = some p) (w : Bytes) (hrecv : p.m3.getD j [] = w) (bad b : Bytes) (hb : b64Decode bad = some b)
    (hp : parseWireMsg b = none) :
    spec.OnlyFailedTries e (S.key i) .last [.acc3 (S.key i) j bad, .final (S.key i), .acc3 (S.key i) j (b64Encode w)] s.reg ∧
    ∃ out, (OnsignFinalExec e s.reg (S.key i)).1 = .ok out ∧
      (OnsignFinalExec e (runOps e [.acc3 (S.key i) j bad, .final (S.key i), .acc3 (S.key i) j (b64Encode w)] s.reg) (S.key i)).1 = .ok out := by
  obtain ⟨F, -⟩ := H.facts
  have hs := run_inv F.toGFacts hr
  obtain ⟨p', h1', h2⟩ := hs.stage_ne hi (by omega)
  obtain rfl : p = p' := Option.some.inj (h1.symm.trans h1')
  have hml : p.m3.length = S.n := h2.lm .three
  -- the garbled message is stored
  have hbad : (Op.acc3 (S.key i) (j : Int) bad).run e s.reg =
      (.res (.err .parse), s.reg.set (S.key i) (some { p with m3 := p.m3.set j b })) := by
    show (Out.res (noData (withParty _ s.reg (S.key i) (accept .sg3 .notRound3 (·.m3) (fun p l => { p with m3 := l }) j bad)).1),
      (withParty _ s.reg (S.key i) (accept .sg3 .notRound3 (·.m3) (fun p l => { p with m3 := l }) j bad)).2) = _
    rw [withParty_some (key := S.key i) _ _ h1]
    have : accept .sg3 .notRound3 (·.m3) (fun p l => { p with m3 := l }) j bad p = (.err .parse, { p with m3 := p.m3.set j b }) := by
      unfold accept
      rw [hb]
      simp only
      rw [if_pos ⟨by omega, by omega⟩, hp, Int.toNat_natCast]
    rw [this]; rfl
  have hids : p.ids.length = S.n := by rw [h2.ids, F.lids]
  have hidx : p.index = i := h2.index
  -- the last call fails
  have hfail : spec.Failed ((Op.final (S.key i)).run e (s.reg.set (S.key i) (some { p with m3 := p.m3.set j b }))).1 := by
    show spec.Failed (.res (withParty _ _ (S.key i) (finalExec e)).1)
    rw [withParty_some (key := S.key i) _ _ (set_same _ _ _)]
    refine failed_of_not_ok fun o ho => ?_
    obtain ⟨-, -, -, -, -, -, hsig, -⟩ := (finalExec_ok_iff e _ o _).1 (Prod.ext ho rfl)
    obtain ⟨x, hx⟩ := hsig j (by show j < p.ids.length; omega) (by show j ≠ p.index; omega)
    have hg : (p.m3.set j b).getD j [] = b := by
      rw [List.getD_eq_getElem?_getD, List.getElem?_set_self (by omega)]; rfl
    unfold sigmaOf at hx
    simp only [hg, hp] at hx
    cases hx
  have hO : spec.OnlyFailedTries e (S.key i) .last [.acc3 (S.key i) j bad, .final (S.key i), .acc3 (S.key i) j (b64Encode w)] s.reg := by
    refine ⟨fun _ => .inl rfl, fun _ => .inr ⟨rfl, ?_⟩, fun _ => .inl rfl, trivial⟩
    rw [hbad]; exact hfail
  refine ⟨hO, ?_⟩
  obtain ⟨out, hout⟩ := C55_every_call_ok H s _ _ hr (Step.final s i hi h4 ha _ rfl)
  refine ⟨out, hout, ?_⟩
  have hret := (C104_sign_retry e (S.key i) .last _ s.reg (.final (S.key i)) rfl rfl hO).1
  have hwo : spec.withoutTries (S.key i) .last [.acc3 (S.key i) j bad, .final (S.key i), .acc3 (S.key i) j (b64Encode w)] =
      [.acc3 (S.key i) j bad, .acc3 (S.key i) j (b64Encode w)] := by
    unfold spec.withoutTries
    rw [List.filter_cons_of_pos (by simp [spec.executes, spec.stage]), List.filter_cons_of_neg (by simp [Op.key, spec.executes, spec.stage]),
      List.filter_cons_of_pos (by simp [spec.executes, spec.stage])]
    rfl
  rw [hwo] at hret
  have hback : runOps e [.acc3 (S.key i) j bad, .acc3 (S.key i) j (b64Encode w)] s.reg = s.reg := by
    show ((Op.acc3 (S.key i) j (b64Encode w)).run e ((Op.acc3 (S.key i) j bad).run e s.reg).2).2 = s.reg
    rw [hbad]
    show (withParty _ _ (S.key i) (accept .sg3 .notRound3 (·.m3) (fun p l => { p with m3 := l }) j (b64Encode w))).2 = s.reg
    rw [withParty_some (key := S.key i) _ _ (set_same _ _ _)]
    have : (accept .sg3 .notRound3 (·.m3) (fun p l => { p with m3 := l }) j (b64Encode w) { p with m3 := p.m3.set j b }).2 = p := by
      unfold accept
      rw [b64_round_trip]
      simp only
      rw [if_pos ⟨by omega, by rw [List.length_set]; omega⟩, Int.toNat_natCast, List.set_set]
      have hself : p.m3.set j w = p.m3 := by
        apply List.ext_getElem?
        intro k
        by_cases hk : j = k
        · subst hk
          rw [List.getElem?_set_self (by omega)]
          rw [List.getD_eq_getElem?_getD] at hrecv
          have : j < p.m3.length := by omega
          rw [List.getElem?_eq_getElem this] at hrecv ⊢
          exact congrArg some hrecv.symm
        · rw [List.getElem?_set_ne hk]
      split
      · exact congrArg (fun l => ({ p with m3 := l } : Party)) hself
      · split <;> exact congrArg (fun l => ({ p with m3 := l } : Party)) hself
    rw [this]
    funext k
    by_cases hk : k = S.key i
    · subst hk; exact (set_same _ _ _).trans h1.symm
    · exact (set_other _ _ hk).trans (set_other _ _ hk)
  rw [hback] at hret
  have hret' : Out.res (OnsignFinalExec e (runOps e [.acc3 (S.key i) j bad, .final (S.key i), .acc3 (S.key i) j (b64Encode w)] s.reg) (S.key i)).1 =
    Out.res (OnsignFinalExec e s.reg (S.key i)).1 := hret
  injection hret' with hret'
  rw [hret', hout]

/-- the toy session: party 0 is about to make its last call, and the message of party 1 is overwritten by the byte ff -/
example : ∃ (s : Net) (p : Party), Run (toyEnvSha id) (toySessionK fun _ => 3) s ∧ s.reg [0] = some p ∧
    spec.OnlyFailedTries (toyEnvSha id) [0] .last [.acc3 [0] 1 (b64Encode [255]), .final [0], .acc3 [0] 1 (b64Encode (p.m3.getD 1 []))] s.reg ∧
    ∃ out, (OnsignFinalExec (toyEnvSha id)
      (runOps (toyEnvSha id) [.acc3 [0] 1 (b64Encode [255]), .final [0], .acc3 [0] 1 (b64Encode (p.m3.getD 1 []))] s.reg) [0]).1 = .ok out := by
  obtain ⟨H⟩ := toyHonestK id (fun _ => 3) (fun _ => by decide)
  obtain ⟨F, -⟩ := H.facts
  obtain ⟨s2, g1, g2⟩ := C55_can_finish H _ (told_init F).run
  obtain ⟨t, t1, t2, -, -, t5⟩ := crossing (i := 0) g1 (told_init F) 4 (by simp) (by rw [g2 0 (by decide)]; decide)
  obtain ⟨p, p1, p2⟩ := (run_inv F.toGFacts t1.run).stage_ne (i := 0) (by decide) (by omega)
  obtain ⟨h1, out, -, h2⟩ := C104_garbled_share H t t1.run 0 1 (by decide) (by decide) (by decide) t2 (t5 rfl) p p1 _ rfl (b64Encode [255]) [255]
    (b64_round_trip _) (by decide +kernel)
  exact ⟨t, p, t1.run, p1, h1, out, h2⟩

end Tss.Onsign
