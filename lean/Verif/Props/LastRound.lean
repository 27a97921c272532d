import Verif.Props.SignBlame
import Verif.Lemmas.Ed25519Order
/-! C83: the last signing round: what arbitrary messages can do after an honest start, and whom it blames. -/
namespace Tss.Onsign
open Tss Text Wire RangeProofs
open _root_.Tss.Keygen (forJ forJ_cons_ok getD_set forJ_err)

/-! ### Specification -/

/-- The number a share message carries: its first 32 significant bytes, big endian. -/
def spec.shareValue (b : Bytes) : Nat := beNat ((b.dropWhile (· = 0)).take 32)

/-- The sum of `f` over all parties except `i`. -/
def spec.sumOthers (n i : Nat) (f : Nat → Nat) : Nat := ((List.range n).map fun j => if j = i then 0 else f j).sum

variable {e : Env} {S : Session} {F : Facts e S}

theorem leNat_encoded (b : Bytes) : leNat (Ed.bigIntToEncodedBytes (some (beNat b : Int))) = spec.shareValue b := by
  unfold Ed.bigIntToEncodedBytes spec.shareValue
  simp only
  rw [C56_signed_bytes]
  generalize b.dropWhile (· = 0) = l
  rw [leNat_reverse]
  unfold Ed.copyBytes
  split
  · next h => rw [beNat_zeros, List.take_of_length_le (by omega)]
  · rfl

/-- the sum of arbitrary shares -/
theorem leNat_sumOf_any {p : Party} {i : Nat} (hpi : p.index = i) :
    ∀ (l : List Nat) (s : Bytes), s.length = 32 → leNat s < Ed.ord →
      leNat (sumOf p l s) = (leNat s + (l.map fun j => if j = i then 0 else spec.shareValue ((sigmaOf p j).getD [])).sum) % Ed.ord := by
  intro l
  induction l with
  | nil => intro s _ hs; simp [sumOf, Nat.mod_eq_of_lt hs]
  | cons j t ih =>
    intro s hl hs
    rw [sumOf, List.foldl_cons]
    by_cases hj : j = i
    · rw [if_pos (by rw [hpi]; exact hj)]
      have := ih s hl hs
      rw [sumOf] at this
      rw [this, List.map_cons, List.sum_cons, if_pos hj, Nat.zero_add]
    · rw [if_neg (by rw [hpi]; exact hj)]
      obtain ⟨q1, q2, q3⟩ := scMulAdd_spec s (Ed.bigIntToEncodedBytes (some 1))
        (Ed.bigIntToEncodedBytes (some ((beNat ((sigmaOf p j).getD []) : Nat) : Int)))
      have := ih _ q1 q2
      rw [sumOf] at this
      rw [this, q3, leNat_encoded, List.map_cons, List.sum_cons, if_neg hj]
      have h1 : leNat (Ed.bigIntToEncodedBytes (some 1)) = 1 := by
        rw [Ed.leNat_bigIntToEncodedBytes (by norm_num)]; rfl
      rw [h1, Nat.mul_one]
      generalize (t.map fun j => if j = i then 0 else spec.shareValue ((sigmaOf p j).getD [])).sum = T
      rw [Nat.mod_add_mod, Nat.add_assoc]

/-- the check of the last round is passed by one scalar only -/
theorem verify_iff (s : Bytes) (hl : s.length = 32) (hlt : leNat s < Ed.ord) :
    Ed.edwardsVerify e.sha512 (Ed.lawful.pt F.A).x (Ed.lawful.pt F.A).y (intBytes F.m) (leNat (Ed.encode F.Rtot) : Int)
      (Ed.encodedBytesToBigInt s) = true ↔ leNat s = F.stot := by
  have henc : Ed.bigIntToEncodedBytes (some (leNat (Ed.encode F.Rtot) : Int)) = Ed.encode F.Rtot := by
    rw [← (encodedBytes_range _ (Ed.encode_length F.Rtot)).2.2]
    exact encodedBytes_roundtrip _ (Ed.encode_length _)
  unfold Ed.edwardsVerify
  rw [encodedBytes_roundtrip _ hl, henc]
  have hA : Ed.ecPointToEncodedBytes (Ed.lawful.pt F.A).x (Ed.lawful.pt F.A).y = Ed.encode F.A :=
    Ed.ecPointToEncodedBytes_coords F.A
  rw [hA, Ed.edVerify_encode _ _ _ _ _ (Ed.encode_length _) hl]
  have hstot : F.stot < Ed.ord := Nat.mod_lt _ Ed.ord_prime.pos
  have heq := sig_equation (F := F)
  change _ ∧ Ed.encode F.Rtot = Ed.encode (leNat s • Ed.B - F.lam • F.A) ↔ _
  constructor
  · rintro ⟨-, h⟩
    have h2 := Ed.encode_injective h
    rw [← heq] at h2
    have h3 : F.stot • Ed.B = leNat s • Ed.B := sub_left_injective h2
    have h4 := (nsmul_eq_nsmul_iff_modEq).mp h3
    rw [Ed.addOrderOf_B] at h4
    unfold Nat.ModEq at h4
    rw [Nat.mod_eq_of_lt hstot, Nat.mod_eq_of_lt hlt] at h4
    exact h4.symm
  · intro h
    refine ⟨lt_trans hlt (by decide +kernel), ?_⟩
    rw [h, heq]

/-- What a party after round 3 of an honest session holds, whatever messages it has been handed since. -/
theorem after3 {i : Nat} {got : Mk → Nat → Bool} {p q : Party} (h : PI F.toGFacts i 4 got p) (hi : i < S.n) (hq : KeepsAll p q) :
    q.index = i ∧ q.ids.length = S.n ∧ q.m = F.m ∧ q.si = some (leFixed 32 (F.sg i)) ∧
      q.r = some (leNat (Ed.encode F.Rtot) : Int) ∧ q.keys.eddsaPub = some (Ed.lawful.pt F.A) := by
  obtain ⟨s1, s2, s3, s4, s5⟩ := h.s1 (by omega)
  obtain ⟨t1, t2⟩ := h.s3 (by omega)
  obtain ⟨a, b, c, d, rfl⟩ := hq
  exact ⟨h.index, by show p.ids.length = _; rw [h.ids, F.lids], h.m_eq hi, t1, t2, h.key_eq hi (by omega)⟩

theorem sum_lt {i : Nat} : leNat (leFixed 32 (F.sg i)) = F.sg i := by
  have hordlt : Ed.ord < 256 ^ 32 := by decide +kernel
  rw [leNat_leFixed, Nat.mod_eq_of_lt (lt_trans (F.sg_lt i) hordlt)]

theorem stot_eq {i : Nat} (hi : i < S.n) (v : Nat) :
    (F.sg i + v) % Ed.ord = F.stot ↔ v % Ed.ord = spec.sumOthers S.n i F.sg % Ed.ord := by
  have : F.stot = (F.sg i + spec.sumOthers S.n i F.sg) % Ed.ord := by
    unfold GFacts.stot
    rw [← sum_split F.sg i _ List.nodup_range (List.mem_range.mpr hi)]
    rfl
  rw [this]
  constructor
  · intro h; exact Nat.ModEq.add_left_cancel' (F.sg i) h
  · intro h; exact Nat.ModEq.add_left (F.sg i) h

theorem sig_of_sum {q : Party} {i : Nat} (h2 : q.ids.length = S.n) (h3 : q.m = F.m)
    (hl : (sumOf q (List.range S.n) (leFixed 32 (F.sg i))).length = 32)
    (hs : leNat (sumOf q (List.range S.n) (leFixed 32 (F.sg i))) = F.stot) :
    sigOf q (leNat (Ed.encode F.Rtot) : Int) (leFixed 32 (F.sg i)) = F.sig := by
  have hstot : F.stot < Ed.ord := Nat.mod_lt _ Ed.ord_prime.pos
  have hordlt : Ed.ord < 256 ^ 32 := by decide +kernel
  have hbytes : sumOf q (List.range S.n) (leFixed 32 (F.sg i)) = leFixed 32 F.stot := by
    apply leNat_inj
    · rw [hl, leFixed_length]
    · rw [hs, leNat_leFixed, Nat.mod_eq_of_lt (lt_trans hstot hordlt)]
  have henc : Ed.bigIntToEncodedBytes (some (leNat (Ed.encode F.Rtot) : Int)) = Ed.encode F.Rtot := by
    rw [← (encodedBytes_range _ (Ed.encode_length F.Rtot)).2.2]
    exact encodedBytes_roundtrip _ (Ed.encode_length _)
  have hle : Ed.encodedBytesToBigInt (leFixed 32 F.stot) = (F.stot : Int) := by
    rw [(encodedBytes_range _ (leFixed_length _ _)).2.2, leNat_leFixed, Nat.mod_eq_of_lt (lt_trans hstot hordlt)]
  unfold sigOf
  rw [F.sig_def]
  rw [h2, hbytes, henc, hle, h3]

theorem final_same {i : Nat} {got : Mk → Nat → Bool} {p q q' : Party} {out : Bytes} (h : PI F.toGFacts i 4 got p)
    (hi : i < S.n) (hq : KeepsAll p q) (hf : finalExec e q = (.ok out, q')) : e.jsonSig F.sig = some out := by
  obtain ⟨a1, a2, a3, a4, a5, a6⟩ := after3 h hi hq
  obtain ⟨s0, r, A, b1, b2, b3, b4, b5, b6, -⟩ := (finalExec_ok_iff e q out q').mp hf
  rw [a4] at b1; cases b1
  rw [a5] at b2; cases b2
  rw [a6] at b3; cases b3
  rw [a2, a3] at b5
  obtain ⟨c1, c2⟩ := sumOf_spec q (List.range S.n) (leFixed 32 (F.sg i)) ⟨leFixed_length _ _, by rw [sum_lt]; exact F.sg_lt i⟩
  rw [verify_iff _ c1 c2] at b5
  rw [sig_of_sum a2 a3 c1 b5] at b6
  exact b6

theorem final_outcome {i : Nat} (hi : i < S.n) {got : Mk → Nat → Bool} {p q : Party} (h : PI F.toGFacts i 4 got p)
    (hq : KeepsAll p q) (b : Nat → Bytes)
    (hb : ∀ j, j < S.n → j ≠ i → parseWireMsg (q.m3.getD j []) = some (.sg3 (b j))) :
    (finalExec e q).1 = if spec.sumOthers S.n i (fun j => spec.shareValue (b j)) % Ed.ord = spec.sumOthers S.n i F.sg % Ed.ord then
      .ok ((e.jsonSig F.sig).getD []) else .err .verifyFailed := by
  obtain ⟨a1, a2, a3, a4, a5, a6⟩ := after3 h hi hq
  have hsig : ∀ j, j < S.n → j ≠ i → sigmaOf q j = some (b j) := by
    intro j hj hji; unfold sigmaOf; rw [hb j hj hji]
  obtain ⟨c1, c2⟩ := sumOf_spec q (List.range S.n) (leFixed 32 (F.sg i)) ⟨leFixed_length _ _, by rw [sum_lt]; exact F.sg_lt i⟩
  have hsum := leNat_sumOf_any a1 (List.range S.n) (leFixed 32 (F.sg i)) (leFixed_length _ _) (by rw [sum_lt]; exact F.sg_lt i)
  have hmap : ((List.range S.n).map fun j => if j = i then 0 else spec.shareValue ((sigmaOf q j).getD [])).sum =
      spec.sumOthers S.n i (fun j => spec.shareValue (b j)) := by
    unfold spec.sumOthers
    congr 1
    refine List.map_congr_left fun j hj => ?_
    split
    · rfl
    · next hji => rw [hsig j (List.mem_range.mp hj) hji, Option.getD_some]
  rw [hmap, sum_lt] at hsum
  obtain ⟨out, hout⟩ := Option.isSome_iff_exists.mp (F.json F.sig)
  have hv := verify_iff (F := F) _ c1 c2
  rw [hsum, stot_eq hi] at hv
  by_cases hc : spec.sumOthers S.n i (fun j => spec.shareValue (b j)) % Ed.ord = spec.sumOthers S.n i F.sg % Ed.ord
  · rw [if_pos hc]
    have hok := (finalExec_ok_iff e q out _).mpr ⟨leFixed 32 (F.sg i), (leNat (Ed.encode F.Rtot) : Int), Ed.lawful.pt F.A, a4, a5, a6,
      fun j hj hji => ⟨_, hsig j (by rw [← a2]; exact hj) (by rw [← a1]; exact hji)⟩, by rw [a2, a3]; exact hv.mpr hc,
      by rw [sig_of_sum a2 a3 c1 (by rw [hsum]; exact (stot_eq hi _).mpr hc)]; exact hout, rfl⟩
    rw [hok, hout]; rfl
  · rw [if_neg hc]
    have hnv : ¬ Ed.edwardsVerify e.sha512 (Ed.lawful.pt F.A).x (Ed.lawful.pt F.A).y (intBytes F.m) (leNat (Ed.encode F.Rtot) : Int)
      (Ed.encodedBytesToBigInt (sumOf q (List.range S.n) (leFixed 32 (F.sg i)))) = true := fun hh => hc (hv.mp hh)
    have hloop := (finalLoop_some (List.range S.n) (resetOK { q with number := 4 }) (leFixed 32 (F.sg i)) _).mpr
      ⟨fun j hj hji => ⟨_, (hsig j (List.mem_range.mp hj) (by rw [← a1]; exact hji) :
        sigmaOf (resetOK { q with number := 4 }) j = _)⟩, _, rfl, rfl⟩
    unfold finalExec
    simp only
    rw [show (resetOK { q with number := 4 }).ids.length = S.n from a2, show (resetOK { q with number := 4 }).si = _ from a4, hloop]
    simp only
    rw [show (resetOK { q with number := 4 }).r = _ from a5]
    simp only
    rw [show (resetOK { q with number := 4 }).keys.eddsaPub = _ from a6]
    simp only
    rw [show (resetOK { q with number := 4 }).m = F.m from a3,
      show sumOf (resetOK { q with number := 4 }) (List.range S.n) (leFixed 32 (F.sg i)) = sumOf q (List.range S.n) (leFixed 32 (F.sg i)) from rfl,
      if_neg hnv]

theorem share_of_sent {s : Net} (hs : NI F.toGFacts s) {i j : Nat} (hi : i < S.n) (hj : j < S.n) {w : Bytes}
    (hw : s.sent .three j i = some w) : ∃ b, parseWireMsg w = some (.sg3 b) ∧ spec.shareValue b = F.sg j := by
  have := hs.sent .three j i w hj hi hw
  subst this
  refine ⟨intBytes (F.sg j), F.parse .three j i hj hi, ?_⟩
  rw [← leNat_encoded, Keygen.beNat_coord (by omega), Ed.leNat_bigIntToEncodedBytes, Int.natAbs_natCast]
  rw [Int.natAbs_natCast]
  have h1 := F.sg_lt j
  have h2 : Ed.ord < 2 ^ 256 := by decide +kernel
  omega

/-- C83. Honest parties have signed up to round 3 of party `i`. From then on, until its last call, party `i` is handed
arbitrary messages, any number of them, of any round and from anybody (and any calls are made on other parties). Then
there is one record `sd` – the one every undisturbed party returns – such that
* if the last call returns Ok, it returns `sd`: no message can change what is signed or make it return another signature;
* if every peer's round-3 slot holds a share message, the last call returns `sd` exactly if the shares add up, modulo the
  group order, to the sum of the shares the peers sent; otherwise it says that the verification failed. -/
theorem C83_outcome (H : Honest e S) : ∃ (sd : SigData) (share : Nat → Nat),
    (∀ s, Run e S s → ∀ i, i < S.n → s.stage i = 5 → s.final i = e.jsonSig sd) ∧
    spec.Verifies e.sha512 (Ed.encode (((List.range S.n).map fun j => (beNat (H.child j) : Int)).sum • Ed.B))
      (H.msg.dropWhile (· = 0)) sd.signature ∧
    (∀ s, Run e S s → ∀ i j w, i < S.n → j < S.n → s.sent .three j i = some w →
      ∃ b, parseWireMsg w = some (.sg3 b) ∧ spec.shareValue b = share j) ∧
    ∀ s, Run e S s → ∀ i, i < S.n → s.stage i = 4 → ∀ ops, spec.Quiet (S.key i) ops →
      (∀ out r', OnsignFinalExec e (runOps e ops s.reg) (S.key i) = (.ok out, r') → e.jsonSig sd = some out) ∧
      (∀ (p : Party) (b : Nat → Bytes), runOps e ops s.reg (S.key i) = some p →
        (∀ j, j < S.n → j ≠ i → parseWireMsg (p.m3.getD j []) = some (.sg3 (b j))) →
        (OnsignFinalExec e (runOps e ops s.reg) (S.key i)).1 =
          if spec.sumOthers S.n i (fun j => spec.shareValue (b j)) % Ed.ord = spec.sumOthers S.n i share % Ed.ord
          then .ok ((e.jsonSig sd).getD []) else .err .verifyFailed) := by
  obtain ⟨F, f1, f2, f3, f4⟩ := H.facts
  have hA : F.A = ((List.range S.n).map fun j => (beNat (H.child j) : Int)).sum • Ed.B := by
    rw [F.A_eq, f4]; rfl
  have hm : intBytes F.m = H.msg.dropWhile (· = 0) := by rw [f3, C56_signed_bytes]
  refine ⟨F.sig, F.sg, ?_, ?_, ?_, ?_⟩
  · intro s hr i hi h5
    have hs := run_inv F.toGFacts hr
    obtain ⟨out, ho⟩ := Option.isSome_iff_exists.mp (hs.finished i hi h5)
    rw [ho, hs.released i out hi ho]
  · rw [← hA, ← hm]; exact (sig_verifies F).1
  · exact fun s hr i j w hi hj hw => share_of_sent (run_inv F.toGFacts hr) hi hj hw
  · intro s hr i hi h4 ops hops
    obtain ⟨p, p1, p2⟩ := (run_inv F.toGFacts hr).stage_ne hi (by omega)
    rw [h4] at p2
    obtain ⟨q, q1, q2⟩ := runOps_quiet e (S.key i) ops s.reg p p1 hops
    refine ⟨?_, ?_⟩
    · intro out r' h
      unfold OnsignFinalExec at h
      rw [withParty_some _ _ q1, Prod.mk.injEq] at h
      exact final_same p2 hi q2 (Prod.ext h.1 rfl)
    · intro p' b hp' hb
      rw [q1] at hp'; cases hp'
      unfold OnsignFinalExec
      rw [withParty_some _ _ q1]
      exact final_outcome hi p2 q2 b hb

theorem sumOthers_one {n i j0 : Nat} {f g : Nat → Nat} (hj : j0 < n) (hne : j0 ≠ i) (h : ∀ j, j < n → j ≠ i → j ≠ j0 → f j = g j) :
    spec.sumOthers n i f % Ed.ord = spec.sumOthers n i g % Ed.ord ↔ f j0 % Ed.ord = g j0 % Ed.ord := by
  have key : ∀ f : Nat → Nat, spec.sumOthers n i f = f j0 + ((List.range n).map fun j => if j = j0 then 0 else if j = i then 0 else f j).sum := by
    intro f
    unfold spec.sumOthers
    rw [← sum_split (fun j => if j = i then 0 else f j) j0 _ List.nodup_range (List.mem_range.mpr hj), if_neg hne]
  have hrest : ((List.range n).map fun j => if j = j0 then 0 else if j = i then 0 else f j) =
      (List.range n).map fun j => if j = j0 then 0 else if j = i then 0 else g j := by
    refine List.map_congr_left fun j hj => ?_
    split
    · rfl
    · next h0 =>
      split
      · rfl
      · next hi => exact h j (List.mem_range.mp hj) hi h0
  rw [key f, key g, hrest]
  constructor
  · intro h; exact Nat.ModEq.add_right_cancel' _ h
  · intro h; exact Nat.ModEq.add_right _ h

/-- C83. One peer `j0` sends party `i` a share in an otherwise honest session (all other slots hold what the calls of these
peers returned, then or later): the last call of `i` fails with "verification failed" exactly if the share is wrong modulo
the group order. -/
theorem C83_one_wrong_share (H : Honest e S) (s : Net) (hr : Run e S s) (i j0 : Nat) (hi : i < S.n) (hj0 : j0 < S.n) (hne : j0 ≠ i)
    (h4 : s.stage i = 4) (ops : List Op) (hops : spec.Quiet (S.key i) ops) (p : Party) (hp : runOps e ops s.reg (S.key i) = some p)
    (s2 : Net) (hr2 : Run e S s2) (sent : Nat → Bytes) (hsent : ∀ j, j < S.n → s2.sent .three j i = some (sent j))
    (hgood : ∀ j, j < S.n → j ≠ i → j ≠ j0 → p.m3.getD j [] = sent j)
    (bad good : Bytes) (hbad : parseWireMsg (p.m3.getD j0 []) = some (.sg3 bad)) (hg : parseWireMsg (sent j0) = some (.sg3 good)) :
    (OnsignFinalExec e (runOps e ops s.reg) (S.key i)).1 = .err .verifyFailed ↔
      spec.shareValue bad % Ed.ord ≠ spec.shareValue good % Ed.ord := by
  obtain ⟨sd, share, -, -, h3, h5⟩ := C83_outcome H
  obtain ⟨-, h6⟩ := h5 s hr i hi h4 ops hops
  have hc : ∀ j, ∃ b, (j < S.n → j ≠ i → j ≠ j0 → parseWireMsg (sent j) = some (.sg3 b) ∧ spec.shareValue b = share j) := by
    intro j
    by_cases hj : j < S.n
    · obtain ⟨b, h⟩ := h3 s2 hr2 i j _ hi hj (hsent j hj)
      exact ⟨b, fun _ _ _ => h⟩
    · exact ⟨[], fun h => absurd h hj⟩
  choose b hb using hc
  obtain ⟨b0, g1, g2⟩ := h3 s2 hr2 i j0 _ hi hj0 (hsent j0 hj0)
  rw [hg] at g1; cases g1
  have h7 := h6 p (fun j => if j = j0 then bad else b j) hp (by
    intro j hj hji
    by_cases hjj : j = j0
    · subst hjj; rw [if_pos rfl]; exact hbad
    · rw [if_neg hjj, hgood j hj hji hjj]; exact (hb j hj hji hjj).1)
  rw [h7]
  have h8 := sumOthers_one (f := fun j => spec.shareValue (if j = j0 then bad else b j)) (g := share) hj0 hne (by
    intro j hj hji hjj
    simp only [if_neg hjj]
    exact (hb j hj hji hjj).2)
  simp only [if_true] at h8
  rw [g2]
  by_cases hx : spec.shareValue bad % Ed.ord = share j0 % Ed.ord
  · rw [if_pos (h8.mpr hx)]
    exact ⟨fun h => (by cases h), fun h => absurd hx h⟩
  · rw [if_neg (fun h => hx (h8.mp h))]
    exact ⟨fun _ => hx, fun _ => rfl⟩

theorem finalStep_err {s : Party × Option Bytes} {j : Nat} {er : Err} (h : (finalStep s j).1 = .err er) : er = .parse := by
  unfold finalStep at h
  simp only at h
  split at h
  · cases h
  · split at h
    · cases h; rfl
    · split at h <;> cases h
    · cases h

/-- C83. Whatever has happened, an error of the last call declares nobody's message bad: a wrong share cannot be told from
its sender. -/
theorem C83_blames_nobody (e : Env) (r : Reg) (key : Bytes) (er : Err) (h : (OnsignFinalExec e r key).1 = .err er) :
    spec.blamed er = none := by
  unfold OnsignFinalExec at h
  cases hk : r key with
  | none => rw [withParty_none _ _ hk] at h; cases h; rfl
  | some p =>
    rw [withParty_some _ _ hk] at h
    unfold finalExec at h
    simp only at h
    split at h
    · next heq =>
      cases h
      obtain ⟨j, -, s', -, h⟩ := forJ_err (fun _ => True) (fun _ _ _ => trivial) _ _ trivial (congrArg Prod.fst heq)
      rw [finalStep_err h]; rfl
    · cases h
    · cases h
    · split at h
      · cases h
      · split at h
        · cases h
        · split at h
          · split at h <;> cases h
            rfl
          · cases h; rfl

end Tss.Onsign
