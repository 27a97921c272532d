import Verif.Props.AbsentEx
import Mathlib.Algebra.BigOperators.Intervals
import Mathlib.Algebra.BigOperators.Ring.Finset
/-! C115: signers that were not asked for the same thing release nothing. -/
namespace Tss.Onsign
open Tss Text Wire RangeProofs

/-! ### Specification -/

/-- Signers each of which is honest in a session of its own idea: `args i j` are the arguments that signer `i` takes signer
`j` to have been created with, and with these the session is one of honest signers (`view i`).  The ideas agree in the party
ids and in the Paillier and ring-Pedersen numbers of the signers; they may differ in everything else: message, path, key. -/
structure Divided (e : Env) (S : Session) where
  args : Nat → Nat → NewArgs
  own : ∀ i, i < S.n → args i i = S.args i
  view : ∀ i, Signers e { S with args := args i }
  same : ∀ i, (view i).ids = (view 0).ids ∧ (view i).N = (view 0).N ∧ (view i).pn = (view 0).pn ∧ (view i).ps = (view 0).ps ∧
    (view i).pt = (view 0).pt

/-- The share signer `i` signs with. -/
def spec.ownShare {e : Env} {S : Session} (D : Divided e S) (i : Nat) : Nat := beNat ((D.view i).child i)

/-- The secret of the key that signer `i` signs for. -/
def spec.wholeSecret {e : Env} {S : Session} (D : Divided e S) (i : Nat) : Nat :=
  ((List.range (D.view i).total).map fun j => beNat ((D.view i).child j)).sum

/-- The challenge of signer `i`: of the common nonce point, the key and the message it signs. -/
noncomputable def spec.ownChallenge {e : Env} {S : Session} (D : Divided e S) (i : Nat) : Nat :=
  spec.challenge e.sha512 (Ed.encode (spec.jointNonce S)) (Ed.encode (spec.wholeSecret D i • Ed.B))
    (intBytes (beNat (D.view i).msg : Int))

/-- The answers of all signers, without the nonces, are what signer `i` expects. -/
def spec.answersFit {e : Env} {S : Session} (D : Divided e S) (i : Nat) : Prop :=
  ((List.range S.n).map fun j => spec.ownChallenge D j * spec.ownShare D j).sum ≡
    spec.ownChallenge D i * spec.wholeSecret D i [MOD Ed.ord]

/-- The signers of a session are given messages of their own. -/
def spec.withMessages (S : Session) (msgs : Nat → Bytes) : Session :=
  { S with
    args := fun i => { S.args i with msg := hexEncode (msgs i) } }

variable {e : Env} {S : Session}

theorem Divided.facts (D : Divided e S) : ∃ F : GFacts e S, F.keys = (fun i => (D.view i).keys i) ∧
    F.mOf = (fun i => (beNat (D.view i).msg : Int)) ∧ F.x = (fun i => (D.view i).x i) ∧
    F.AOf = fun i => ((List.range (D.view i).total).map (D.view i).x).sum • Ed.B := by
  have hF := fun i => (D.view i).facts_full
  choose G g1 g2 g3 g4 g5 g6 g7 using hF
  have hN : ∀ i, (G i).N = (G 0).N := by
    intro i
    rw [g6, g6, (D.same i).2.1]
  have hP : ∀ i, (G i).ped = (G 0).ped := by
    intro i
    obtain ⟨-, -, a, b, c⟩ := D.same i
    rw [g7, g7, a, b, c]
  exact ⟨{
    ids := (G 0).ids
    keys := fun i => (D.view i).keys i
    mOf := fun i => (beNat (D.view i).msg : Int)
    x := fun i => (D.view i).x i
    AOf := fun i => ((List.range (D.view i).total).map (D.view i).x).sum • Ed.B
    N := (G 0).N
    ped := (G 0).ped
    K := (G 0).K
    enc := (G 0).enc
    log := (G 0).log
    keyInj := (G 0).keyInj
    lids := (G 0).lids
    create := fun i hi r => by
      have h := (D.view i).create i hi r
      rw [(D.same i).1, ← g1 0] at h
      rw [← D.own i hi]
      exact h
    priv := fun i hi => rfl
    xr := fun i hi => by
      have := (G i).xr i hi
      rw [g4] at this
      exact this
    pubs := fun i hi => by
      have := (G i).pubs i hi
      rw [g2, g5] at this
      exact this
    paillier := fun i j hi hj => by
      have := (G i).paillier i j hi hj
      rw [g2, hN] at this
      exact this
    peds := fun i j hi hj => by
      have := (G i).peds i j hi hj
      rw [g2, hP] at this
      exact this
    kr := (G 0).kr
    cipher := (G 0).cipher
    Kpos := (G 0).Kpos
    encNew := (G 0).encNew
    encVer := (G 0).encVer
    encRt := (G 0).encRt
    logNew := (G 0).logNew
    logVer := (G 0).logVer
    logRt := (G 0).logRt
    zs := (G 0).zs
    encLen := (G 0).encLen
    logLen := (G 0).logLen
    KLen := (G 0).KLen
    json := (G 0).json }, rfl, rfl, rfl, rfl⟩

theorem fits_iff (D : Divided e S) (F : GFacts e S) (f2 : F.mOf = fun i => (beNat (D.view i).msg : Int))
    (f3 : F.x = fun i => (D.view i).x i) (f4 : F.AOf = fun i => ((List.range (D.view i).total).map (D.view i).x).sum • Ed.B)
    (i : Nat) : F.Fits i ↔ spec.answersFit D i := by
  have hA : ∀ j, F.AOf j = spec.wholeSecret D j • Ed.B := by
    intro j
    rw [f4, ← natCast_zsmul]
    unfold spec.wholeSecret
    rw [← sum_cast]
    rfl
  have hl : ∀ j, F.lamOf j = spec.ownChallenge D j := by
    intro j
    unfold GFacts.lamOf spec.ownChallenge spec.challenge
    rw [hA, f2]
    rfl
  have hs : ((List.range S.n).map fun j => (F.lamOf j : Int) * F.x j).sum =
      ((((List.range S.n).map fun j => spec.ownChallenge D j * spec.ownShare D j).sum : Nat) : Int) := by
    generalize List.range S.n = l
    induction l with
    | nil => rfl
    | cons a t ih =>
      rw [List.map_cons, List.sum_cons, List.map_cons, List.sum_cons, ih, hl, f3, Nat.cast_add, Nat.cast_mul]
      rfl
  unfold GFacts.Fits spec.answersFit
  rw [hs, natCast_zsmul, hl, hA, ← mul_smul, nsmul_eq_nsmul_iff_modEq, Ed.addOrderOf_B]

/-! ### C115 -/

/-- C115. Whatever the signers were asked for, every call of every one of them up to and including round 3 succeeds:
nothing before the last call shows that they disagree. -/
theorem C115_rounds_succeed (D : Divided e S) (s s' : Net) (out : Res Err Bytes) (hr : Run e S s) (h : Step e S s out s')
    (hnot : ∀ i, i < S.n → ¬ (s.stage i = 4 ∧ s'.stage i = 5)) : ∃ b, out = .ok b := by
  obtain ⟨F, -⟩ := D.facts
  exact (gstep_ok (run_inv F hr) h).1.1 fun i ⟨hi, h4, h5⟩ => hnot i hi ⟨h4, h5⟩

/-- C115. The last call of a signer succeeds exactly if the answers of all fit what it signs; otherwise it fails with the
signature error. -/
theorem C115_last_call (D : Divided e S) (s : Net) (hr : Run e S s) (i : Nat) (hi : i < S.n) (h4 : s.stage i = 4)
    (hall : s.all S .three i) :
    (spec.answersFit D i → ∃ out, (OnsignFinalExec e s.reg (S.key i)).1 = .ok out) ∧
    (¬ spec.answersFit D i → (OnsignFinalExec e s.reg (S.key i)).1 = .err .verifyFailed) := by
  obtain ⟨F, -, f2, f3, f4⟩ := D.facts
  have hst := Step.final (e := e) s i hi h4 hall _ rfl
  obtain ⟨⟨-, hl⟩, -⟩ := gstep_ok (run_inv F hr) hst
  obtain ⟨l1, l2⟩ := hl i ⟨hi, h4, upd_same _ _ _⟩
  have hc := fits_iff D F f2 f3 f4 i
  exact ⟨fun h => l1 (hc.mpr h), fun h => l2 fun he => h (hc.mp he)⟩

/-- C115. In every run: no signer whose expectation the answers do not fit gets a signature. -/
theorem C115_nothing_released (D : Divided e S) (s : Net) (hr : Run e S s) (i : Nat)
    (hc : ¬ spec.answersFit D i) : s.final i = none := by
  obtain ⟨F, -, f2, f3, f4⟩ := D.facts
  have hne : ¬ F.Fits i := fun h => hc ((fits_iff D F f2 f3 f4 i).mp h)
  induction hr with
  | init r => rfl
  | @step s0 s1 out h0 hst ih =>
    have hl := (gstep_ok (run_inv F h0) hst).1.2
    cases hst with
    | final j hj h4 ha q hq =>
      show upd s0.final j (dataOf q.1) i = none
      simp only [upd]
      split
      · next hji =>
        subst hji
        have := (hl i ⟨hj, h4, upd_same _ _ _⟩).2 hne
        rw [this]
        rfl
      · exact ih
    | _ => exact ih
  | noise _ hn ih =>
    cases hn <;> exact ih

/-- C115. The signers do get that far. -/
theorem C115_reaches_last (D : Divided e S) (s : Net) (hr : Run e S s) :
    ∃ s', Steps e S s s' ∧ ∀ i, i < S.n → s'.stage i = 5 :=
  D.facts.elim fun F _ => can_finish F s (run_inv F hr)

/-! ### different messages -/

/-- The same signers, with signer `i` asked for the message `msgs i`. -/
def Signers.divided (G : Signers e S) (msgs : Nat → Bytes) : Divided e (spec.withMessages S msgs) where
  args := fun i j => { S.args j with msg := hexEncode (msgs i) }
  own := fun _ _ => rfl
  view := fun i => { G with
    msg := msgs i
    message := fun _ _ => hex_round_trip _ }
  same := fun _ => ⟨rfl, rfl, rfl, rfl, rfl⟩

/-- The challenge for a message, with the common nonce point and the key of all parties. -/
noncomputable def spec.challengeFor (G : Signers e S) (M : Bytes) : Nat :=
  spec.challenge e.sha512 (Ed.encode (spec.jointNonce S)) (Ed.encode (spec.groupKey G)) (intBytes (beNat M : Int))

theorem list_finset (f : Nat → Nat) (n : Nat) : ((List.range n).map f).sum = ∑ j ∈ Finset.range n, f j := by
  induction n with
  | zero => rfl
  | succ n ih => rw [List.range_succ, List.map_append, List.sum_append, ih, Finset.sum_range_succ]; simp

theorem own_challenge (G : Signers e S) (msgs : Nat → Bytes) (i : Nat) :
    spec.ownChallenge (G.divided msgs) i = spec.challengeFor G (msgs i) := rfl

/-- The condition of C115 when all parties of key generation sign: the differences of the challenges, each times the share
it is answered with, cancel. -/
theorem fit_differences (G : Signers e S) (hall : G.total = S.n) (msgs : Nat → Bytes) (i : Nat) :
    spec.answersFit (G.divided msgs) i ↔
      (Ed.ord : Int) ∣ ∑ j ∈ Finset.range S.n, ((spec.challengeFor G (msgs i) : Int) - spec.challengeFor G (msgs j)) *
        (beNat (G.child j) : Int) := by
  unfold spec.answersFit
  have h1 : spec.wholeSecret (G.divided msgs) i = ∑ j ∈ Finset.range S.n, beNat (G.child j) := by
    unfold spec.wholeSecret
    show ((List.range G.total).map fun j => beNat (G.child j)).sum = _
    rw [hall, list_finset]
  have h2 : ((List.range (spec.withMessages S msgs).n).map fun j => spec.ownChallenge (G.divided msgs) j *
      spec.ownShare (G.divided msgs) j).sum = ∑ j ∈ Finset.range S.n, spec.challengeFor G (msgs j) * beNat (G.child j) :=
    list_finset _ _
  rw [h1, h2, own_challenge, Nat.modEq_iff_dvd]
  push_cast
  rw [Finset.mul_sum, ← Finset.sum_sub_distrib]
  simp only [sub_mul]

/-- The messages of a session in which signer `d` is asked for `M'` and every other signer for `M`. -/
def spec.oddOne (d : Nat) (M M' : Bytes) : Nat → Bytes := fun j => if j = d then M' else M

theorem ord_int_prime : Prime (Ed.ord : Int) := Nat.prime_iff_prime_int.mp Ed.ord_prime

theorem differ_dvd (G : Signers e S) (M M' : Bytes) :
    (Ed.ord : Int) ∣ (spec.challengeFor G M : Int) - spec.challengeFor G M' ↔
      spec.challengeFor G M = spec.challengeFor G M' := by
  have hl : ∀ X, spec.challengeFor G X < Ed.ord := fun X => challenge_lt _ _ _ _
  rw [← Nat.modEq_iff_dvd, Nat.ModEq, Nat.mod_eq_of_lt (hl M), Nat.mod_eq_of_lt (hl M')]
  exact eq_comm

/-- C115. All parties of key generation sign, and signer `d` is asked for another message than the rest.  The answers fit
another signer exactly if the two challenges are equal or `d`'s share is zero, and `d` exactly if the two challenges are
equal or the shares of the rest add up to zero (modulo the group order). -/
theorem C115_odd_one_out (G : Signers e S) (hall : G.total = S.n) (d : Nat) (hd : d < S.n) (M M' : Bytes) (i : Nat) :
    spec.answersFit (G.divided (spec.oddOne d M M')) i ↔ spec.challengeFor G M = spec.challengeFor G M' ∨
      (if i = d then (∑ j ∈ (Finset.range S.n).erase d, beNat (G.child j)) % Ed.ord = 0
        else beNat (G.child d) % Ed.ord = 0) := by
  rw [fit_differences G hall]
  have hm := Finset.mem_range.mpr hd
  rw [← Finset.add_sum_erase _ _ hm]
  have hk : ∀ a : Nat, (Ed.ord : Int) ∣ (a : Int) ↔ a % Ed.ord = 0 := by
    intro a; rw [Int.natCast_dvd_natCast, Nat.dvd_iff_mod_eq_zero]
  by_cases hid : i = d
  · rw [if_pos hid]
    have h2 : ∀ j ∈ (Finset.range S.n).erase d, ((spec.challengeFor G (spec.oddOne d M M' i) : Int) -
        spec.challengeFor G (spec.oddOne d M M' j)) * (beNat (G.child j) : Int) =
        ((spec.challengeFor G M' : Int) - spec.challengeFor G M) * (beNat (G.child j) : Int) := by
      intro j hj
      rw [spec.oddOne, if_pos hid, spec.oddOne, if_neg (Finset.ne_of_mem_erase hj)]
    rw [Finset.sum_congr rfl h2, ← Finset.mul_sum, hid, sub_self, zero_mul, zero_add, ord_int_prime.dvd_mul, differ_dvd,
      ← hk]
    push_cast
    rw [eq_comm]
  · rw [if_neg hid]
    have h2 : ∀ j ∈ (Finset.range S.n).erase d, ((spec.challengeFor G (spec.oddOne d M M' i) : Int) -
        spec.challengeFor G (spec.oddOne d M M' j)) * (beNat (G.child j) : Int) = 0 := by
      intro j hj
      rw [spec.oddOne, if_neg hid, spec.oddOne, if_neg (Finset.ne_of_mem_erase hj), sub_self, zero_mul]
    rw [Finset.sum_eq_zero h2, add_zero, spec.oddOne, if_neg hid, spec.oddOne, if_pos rfl, ord_int_prime.dvd_mul, differ_dvd, hk]

/-- C115. In every run of such a session: if the challenges differ and neither `d`'s share nor the sum of the rest is zero,
no signer gets a signature, neither on the one message nor on the other. -/
theorem C115_no_signature (G : Signers e S) (hall : G.total = S.n) (d : Nat) (hd : d < S.n) (M M' : Bytes)
    (hc : spec.challengeFor G M ≠ spec.challengeFor G M') (h1 : beNat (G.child d) % Ed.ord ≠ 0)
    (h2 : (∑ j ∈ (Finset.range S.n).erase d, beNat (G.child j)) % Ed.ord ≠ 0) (s : Net)
    (hr : Run e (spec.withMessages S (spec.oddOne d M M')) s) (i : Nat) : s.final i = none := by
  refine C115_nothing_released (G.divided (spec.oddOne d M M')) s hr i fun h => ?_
  rcases (C115_odd_one_out G hall d hd M M' i).mp h with h | h
  · exact hc h
  · split at h
    · exact h2 h
    · exact h1 h

end Tss.Onsign
