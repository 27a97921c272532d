import Verif.Lemmas.OnsignFacts
/-! Honest signing: rounds 3 and final. -/
namespace Tss.Onsign
open Tss Text Wire RangeProofs
open _root_.Tss.Keygen (forJ forJ_cons_ok getD_set)

variable {e : Env} {S : Session} {F : GFacts e S}

/-- one term of a sum taken out -/
theorem sum_split {M : Type} [AddCommMonoid M] (f : Nat → M) (i : Nat) : ∀ (l : List Nat), l.Nodup → i ∈ l →
    f i + (l.map fun j => if j = i then 0 else f j).sum = (l.map f).sum
  | [], _, h => by simp at h
  | a :: t, hn, h => by
    obtain ⟨ha, ht⟩ := List.nodup_cons.mp hn
    rw [List.map_cons, List.map_cons, List.sum_cons, List.sum_cons]
    by_cases hai : a = i
    · subst hai
      have : (t.map fun j => if j = a then 0 else f j) = t.map f :=
        List.map_congr_left fun j hj => if_neg (by rintro rfl; exact ha hj)
      rw [if_pos rfl, zero_add, this]
    · rw [if_neg hai, ← sum_split f i t ht (by rcases List.mem_cons.mp h with h | h; exact absurd h.symm hai; exact h)]
      rw [add_left_comm]

theorem rep_extended {x y z : Int} (h : Ed.curve.isOnCurve x y = true) (hz : Ed.fe z % Ed.P ≠ 0) :
    Ed.Rep (Ed.ecPointToExtendedElement x y z) (Ed.toPt x y) := by
  have hz0 : ((Ed.fe z : Nat) : Ed.F) ≠ 0 := by
    rw [Ne, show (0 : Ed.F) = ((0 : Nat) : Ed.F) by simp, Ed.natCast_eq, Nat.zero_mod]; exact hz
  refine ⟨hz0, ?_, ?_, ?_⟩
  · rw [Ed.toPt_x h]; exact Ed.cast_feMul _ _
  · rw [Ed.toPt_y h]; exact Ed.cast_feMul _ _
  · rw [Ed.toPt_x h, Ed.toPt_y h]
    change ((Ed.feMul (Ed.feMul (Ed.fe x) (Ed.fe y)) (Ed.fe z) : Nat) : Ed.F) = _
    rw [Ed.cast_feMul, Ed.cast_feMul]; rfl

theorem curveN_eq : Ed.curve.N = (Ed.ord : Int) := rfl

theorem ord_zsmul (k : Int) : Ed.curve.N • (k • Ed.B) = 0 := by
  rw [smul_comm, curveN_eq, natCast_zsmul, Ed.ord_smul_B, smul_zero]

theorem eightInv_nonce (k : Int) :
    ECPoint.eightInvEight Ed.curve (Ed.lawful.pt (k • Ed.B)) = .ok (some (Ed.lawful.pt (k • Ed.B))) := by
  obtain ⟨inv, h1, -, -, h2⟩ := Ed.lawful.eightInvEight_pt (Ed.lawful.on_pt (k • Ed.B)) (by decide +kernel)
  rw [h2, Ed.lawful.val_pt]
  have hz := ord_zsmul k
  have : inv • ((8 % Ed.curve.N) • (k • Ed.B)) = k • Ed.B := by
    rw [Lawful.emod_smul (c := Ed.curve) hz, ← mul_smul, mul_comm, ← Lawful.emod_smul (c := Ed.curve) hz (8 * inv), h1, Lawful.emod_smul (c := Ed.curve) hz, one_smul]
  rw [this]

theorem r3Loop_rep {G : ECPoint} {p : Party} {i : Nat} (hi : i < S.n) (hpi : p.index = i) :
    ∀ (l : List Nat) (E : Ed.Ext) (g : Ed.Point), (∀ j ∈ l, j < S.n) →
      (∀ j ∈ l, j ≠ i → Good3 e G p j (F.R j)) → Ed.Rep E g →
      ∃ E', forJ (r3Step e (S.zs i) G p) l E = (.ok (), E') ∧
        Ed.Rep E' (g + (l.map fun j => if j = i then 0 else (S.rnd j).k • Ed.B).sum) := by
  intro l
  induction l with
  | nil => intro E g _ _ hE; exact ⟨E, rfl, by simpa using hE⟩
  | cons j t ih =>
    intro E g hl hg hE
    by_cases hj : j = i
    · obtain ⟨E', h1, h2⟩ := ih E g (fun a ha => hl a (by simp [ha])) (fun a ha => hg a (by simp [ha])) hE
      refine ⟨E', forJ_cons_ok.mpr ⟨E, (r3Step_ok_iff _ _ _ _ _ _ _).mpr (.inl ⟨by rw [hpi]; exact hj, rfl⟩), h1⟩, ?_⟩
      rw [List.map_cons, List.sum_cons, if_pos hj, zero_add]; exact h2
    · obtain ⟨E1, hE1⟩ : ∃ E1, E1 = E.add (Ed.ecPointToExtendedElement (F.R j).x (F.R j).y (S.zs i j)) := ⟨_, rfl⟩
      have hr : Ed.Rep E1 (g + (S.rnd j).k • Ed.B) := by
        rw [hE1]
        refine Ed.rep_add hE ?_
        have h1 := rep_extended (x := (F.R j).x) (y := (F.R j).y) (Ed.lawful.on_pt _) (F.zs i j hi (hl j (by simp)))
        have h2 : Ed.toPt (F.R j).x (F.R j).y = (S.rnd j).k • Ed.B := Ed.lawful.val_pt _
        rw [h2] at h1
        exact h1
      obtain ⟨E', h1, h2⟩ := ih E1 _ (fun a ha => hl a (by simp [ha])) (fun a ha => hg a (by simp [ha])) hr
      refine ⟨E', forJ_cons_ok.mpr ⟨E1, (r3Step_ok_iff _ _ _ _ _ _ _).mpr (.inr ⟨by rw [hpi]; exact hj, F.R j, F.R j,
        hg j (by simp) hj, eightInv_nonce _, hE1⟩), h1⟩, ?_⟩
      rw [List.map_cons, List.sum_cons, if_neg hj, ← add_assoc]; exact h2

theorem natAbs_lt {a : Int} (h0 : 0 ≤ a) (h : a < 2 ^ 256) : a.natAbs < 2 ^ 256 := by
  have h2 : ((a.natAbs : Nat) : Int) < ((2 ^ 256 : Nat) : Int) := by
    rw [Int.natCast_natAbs, abs_of_nonneg h0]; exact_mod_cast h
  exact_mod_cast h2

theorem natAbs_smul {a : Int} (h0 : 0 ≤ a) (g : Ed.Point) : a.natAbs • g = a • g := by
  rw [← natCast_zsmul, Int.natCast_natAbs, abs_of_nonneg h0]

theorem PI.exec3 {i : Nat} {got : Mk → Nat → Bool} {p : Party} (h : PI F i 3 got p) (hi : i < S.n)
    (hr : ∀ j, j < S.n → j ≠ i → got .two j = true) :
    ∃ p', r3Exec e (S.zs i) p = (.ok (wireBytes (F.cont .three i i)), p') ∧ PI F i 4 got p' := by
  obtain ⟨ep, hkeys⟩ := h.keys
  obtain ⟨s1, s2, s3, s4, s5⟩ := h.s1 (by omega)
  have l2 : p.m2.length = S.n := h.lm .two
  obtain ⟨k0, -, k1⟩ := F.kr i hi
  obtain ⟨x0, x1⟩ := F.xr i hi
  have hm2 : ∀ j, j < S.n → parseWireMsg (p.m2.getD j []) =
      some (.sg2 (intBytes (F.R j).x) (intBytes (F.R j).y) (logMarshal (F.log j i))) := by
    intro j hj
    have := h.all .two (by simp [Mk.stage]) hr j hj
    rw [show p.m2 = Mk.two.slots p from rfl, this, F.parse .two j i hj hi]; rfl
  have hgood : ∀ j ∈ List.range S.n, j ≠ i →
      Good3 e ⟨Ed.curve.Gx, Ed.curve.Gy⟩ (resetOK { p with number := 3 }) j (F.R j) := by
    intro j hj _
    rw [List.mem_range] at hj
    obtain ⟨c1, -, c3, -⟩ := coords_small ((S.rnd j).k • Ed.B)
    refine ⟨_, _, _, F.log j i, F.K j, F.N j, F.ped i, hm2 j hj, F.logRt j i hj hi, ?_, h.s2 (by omega) j hj, ?_, ?_, ?_⟩
    · have e1 : ((beNat (intBytes (F.R j).x) : Nat) : Int) = (F.R j).x := Keygen.beNat_coord c1
      have e2 : ((beNat (intBytes (F.R j).y) : Nat) : Int) = (F.R j).y := Keygen.beNat_coord c3
      rw [e1, e2]
      exact Ed.lawful.new_coords _
    · show p.keys.paillierPKs.getD j none = _
      rw [hkeys]; exact F.paillier i j hi hj
    · show p.keys.ringPedersenPKs.getD p.index none = _
      rw [hkeys, h.index]; exact F.peds i i hi hi
    · show (F.log j i).verify e.Hb Ed.curve proofParameter (context p.ssid j) _ _ _ _ _ = _
      rw [s1]; exact F.logVer j i hj hi
  have hbase : Ed.Rep (Ed.geScalarMultBase (Ed.bigIntToEncodedBytes p.k)) ((S.rnd i).k • Ed.B) := by
    unfold Ed.geScalarMultBase
    rw [s2, Ed.leNat_bigIntToEncodedBytes (natAbs_lt k0 k1)]
    have := Ed.rep_smul (S.rnd i).k.natAbs Ed.rep_base
    rwa [natAbs_smul k0] at this
  obtain ⟨E, g1, g2⟩ := r3Loop_rep (F := F) (p := resetOK { p with number := 3 }) hi h.index (List.range S.n) _ _
    (fun j hj => List.mem_range.mp hj) hgood hbase
  rw [sum_split (fun j => (S.rnd j).k • Ed.B) i _ List.nodup_range (List.mem_range.mpr hi), ← Keygen.sum_smul] at g2
  have hE : E.toBytes = Ed.encode F.Rtot := Ed.rep_toBytes g2
  obtain ⟨w, hw⟩ : ∃ w, w = wireBytes (F.cont .three i i) := ⟨_, rfl⟩
  have hsi : Ed.scMulAdd (Ed.scReduce (e.sha512 (E.toBytes ++
      Ed.ecPointToEncodedBytes (Ed.lawful.pt (F.AOf i)).x (Ed.lawful.pt (F.AOf i)).y ++ intBytes p.m)))
      (Ed.bigIntToEncodedBytes p.keys.privXi) (Ed.bigIntToEncodedBytes p.k) = leFixed 32 (F.sg i) := by
    obtain ⟨q1, q2, q3⟩ := scMulAdd_spec (Ed.scReduce (e.sha512 (E.toBytes ++
      Ed.ecPointToEncodedBytes (Ed.lawful.pt (F.AOf i)).x (Ed.lawful.pt (F.AOf i)).y ++ intBytes p.m)))
      (Ed.bigIntToEncodedBytes p.keys.privXi) (Ed.bigIntToEncodedBytes p.k)
    apply leNat_inj
    · rw [q1, leFixed_length]
    · have hlt : F.sg i < 256 ^ 32 := by
        have h1 := F.sg_lt i
        have h2 : Ed.ord < 256 ^ 32 := by decide +kernel
        omega
      rw [q3, leNat_leFixed, Nat.mod_eq_of_lt hlt, hkeys, s2]
      simp only
      rw [F.priv i hi, Ed.leNat_bigIntToEncodedBytes (natAbs_lt x0 x1), Ed.leNat_bigIntToEncodedBytes (natAbs_lt k0 k1),
        Ed.leNat_scReduce, hE, h.m]
      have : Ed.ecPointToEncodedBytes (Ed.lawful.pt (F.AOf i)).x (Ed.lawful.pt (F.AOf i)).y = Ed.encode (F.AOf i) :=
        Ed.ecPointToEncodedBytes_coords (F.AOf i)
      rw [this]
      rfl
  have key : r3Exec e (S.zs i) p = (.ok w, { resetOK { p with number := 3 } with
      si := some (leFixed 32 (F.sg i))
      r := some (leNat (Ed.encode F.Rtot) : Int)
      m3 := p.m3.set i w }) := by
    unfold r3Exec
    rw [base_new]
    simp only
    rw [show (resetOK { p with number := 3 }).m2.length = S.n from l2,
      show (resetOK { p with number := 3 }).k = p.k from rfl, g1]
    simp only
    rw [show (resetOK { p with number := 3 }).keys = p.keys from rfl, s5]
    simp only
    rw [show (resetOK { p with number := 3 }).m = p.m from rfl, hsi]
    have hlt : F.sg i < 256 ^ 32 := by
      have h1 := F.sg_lt i
      have h2 : Ed.ord < 256 ^ 32 := by decide +kernel
      omega
    rw [(encodedBytes_range (leFixed 32 (F.sg i)) (by rw [leFixed_length])).2.2, leNat_leFixed, Nat.mod_eq_of_lt hlt, hE,
      (encodedBytes_range _ (Ed.encode_length F.Rtot)).2.2, hw]
    simp only [resetOK, h.index, GFacts.cont]
  rw [← hw]
  refine ⟨_, key, ?_⟩
  have hst := h.store (j := i) (got' := got) .three (fun _ _ hh => .inl hh) hi
  constructor
  · exact h.index
  · exact h.ids
  · exact h.m
  · exact ⟨ep, hkeys⟩
  · intro mk
    have := hst.lm mk
    rw [← hw] at this
    cases mk <;> exact this
  · exact h.ls1
  · exact h.ls2
  · exact h.lkc
  · intro _; exact ⟨s1, s2, s3, s4, s5⟩
  · intro _; exact h.send1 (by omega)
  · intro _; exact h.s2 (by omega)
  · intro _; exact h.send2 (by omega)
  · intro _; exact ⟨rfl, rfl⟩
  · intro mk hk
    cases mk
    · exact h.own .a (by simp [Mk.stage])
    · exact h.own .b (by simp [Mk.stage])
    · exact h.own .two (by simp [Mk.stage])
    · show (p.m3.set i w).getD i [] = _
      rw [getD_set, if_pos ⟨rfl, by rw [show p.m3.length = S.n from h.lm .three]; exact hi⟩, hw]
  · intro mk j hj
    have := hst.recv mk j hj
    rw [← hw] at this
    cases mk <;> exact this

/-! ### final -/

theorem leNat_sumOf {p : Party} {i : Nat} (hpi : p.index = i) (f : Nat → Nat) (hf : ∀ j, f j < Ed.ord) :
    ∀ (l : List Nat) (s : Bytes), s.length = 32 → leNat s < Ed.ord →
      (∀ j ∈ l, j ≠ i → sigmaOf p j = some (intBytes (f j))) →
      leNat (sumOf p l s) = (leNat s + (l.map fun j => if j = i then 0 else f j).sum) % Ed.ord := by
  intro l
  induction l with
  | nil => intro s _ hs _; simp [sumOf, Nat.mod_eq_of_lt hs]
  | cons j t ih =>
    intro s hl hs hg
    rw [sumOf, List.foldl_cons]
    by_cases hj : j = i
    · rw [if_pos (by rw [hpi]; exact hj)]
      have := ih s hl hs (fun a ha => hg a (by simp [ha]))
      rw [sumOf] at this
      rw [this, List.map_cons, List.sum_cons, if_pos hj, Nat.zero_add]
    · rw [if_neg (by rw [hpi]; exact hj), hg j (by simp) hj, Option.getD_some]
      obtain ⟨q1, q2, q3⟩ := scMulAdd_spec s (Ed.bigIntToEncodedBytes (some 1))
        (Ed.bigIntToEncodedBytes (some ((beNat (intBytes (f j : Int)) : Nat) : Int)))
      have := ih _ q1 q2 (fun a ha => hg a (by simp [ha]))
      rw [sumOf] at this
      rw [this, q3, Keygen.beNat_coord (by omega), List.map_cons, List.sum_cons, if_neg hj]
      have h1 : leNat (Ed.bigIntToEncodedBytes (some 1)) = 1 := by
        rw [Ed.leNat_bigIntToEncodedBytes (by norm_num)]; rfl
      have h2 : leNat (Ed.bigIntToEncodedBytes (some (f j : Int))) = f j := by
        rw [Ed.leNat_bigIntToEncodedBytes, Int.natAbs_natCast]
        rw [Int.natAbs_natCast]
        have h1 := hf j
        have h2 : Ed.ord < 2 ^ 256 := by decide +kernel
        omega
      rw [h1, h2, Nat.mul_one]
      generalize (t.map fun j => if j = i then 0 else f j).sum = T
      rw [Nat.mod_add_mod, Nat.add_assoc]

/-- what the shares of the signers add up to -/
theorem scalar_equation : F.stot • Ed.B - ((List.range S.n).map fun j => (F.lamOf j : Int) * F.x j).sum • Ed.B = F.Rtot := by
  have hmod : ∀ a : Nat, (a % Ed.ord) • Ed.B = a • Ed.B := by
    intro a
    conv_rhs => rw [← Nat.mod_add_div a Ed.ord]
    rw [add_smul, mul_comm, mul_smul, Ed.ord_smul_B, smul_zero, add_zero]
  have hsum : ∀ l : List Nat, (∀ j ∈ l, j < S.n) → (l.map F.sg).sum • Ed.B =
      (l.map fun j => (F.lamOf j : Int) * F.x j).sum • Ed.B + (l.map fun j => (S.rnd j).k).sum • Ed.B := by
    intro l
    induction l with
    | nil => intro _; simp
    | cons j t ih =>
      intro hl
      have hj := hl j (by simp)
      simp only [List.map_cons, List.sum_cons, add_smul]
      rw [ih (fun a ha => hl a (by simp [ha]))]
      have : F.sg j • Ed.B = ((F.lamOf j : Int) * F.x j) • Ed.B + (S.rnd j).k • Ed.B := by
        rw [GFacts.sg, hmod, add_smul, mul_smul, natAbs_smul (F.xr j hj).1, natAbs_smul (F.kr j hj).1, mul_smul, natCast_zsmul]
      rw [this]
      abel
  rw [GFacts.stot, hmod, hsum _ (fun j hj => List.mem_range.mp hj)]
  unfold GFacts.Rtot
  abel

theorem sig_equation {F : Facts e S} : F.stot • Ed.B - F.lam • F.A = F.Rtot := by
  by_cases hn : 0 < S.n
  · have h := F.fits hn
    have h2 := scalar_equation (F := F.toGFacts)
    unfold GFacts.Fits at h
    rw [h] at h2
    exact h2
  · have h0 : S.n = 0 := by omega
    rw [F.A_eq]
    simp [GFacts.stot, GFacts.Rtot, h0]

theorem PI.done {i : Nat} {got : Mk → Nat → Bool} {p : Party} (h : PI F i 4 got p) (nb : Nat) (ok : List Bool) (d : SigData) :
    PI F i 5 got { p with number := nb, ok := ok, data := d } := by
  constructor
  · exact h.index
  · exact h.ids
  · exact h.m
  · exact h.keys
  · intro mk; have := h.lm mk; cases mk <;> exact this
  · exact h.ls1
  · exact h.ls2
  · exact h.lkc
  · intro _; exact h.s1 (by omega)
  · intro _; exact h.send1 (by omega)
  · intro _; exact h.s2 (by omega)
  · intro _; exact h.send2 (by omega)
  · intro _; exact h.s3 (by omega)
  · intro mk _; have := h.own mk (by cases mk <;> simp [Mk.stage]); cases mk <;> exact this
  · intro mk j hj; have := h.recv mk j hj; cases mk <;> exact this

/-- The last call of a party that has got the honest shares: it releases the signature exactly if the answers
fit what it signs. -/
theorem PI.finish {i : Nat} {got : Mk → Nat → Bool} {p : Party} (h : PI F i 4 got p) (hi : i < S.n)
    (hr : ∀ j, j < S.n → j ≠ i → got .three j = true) :
    (F.Fits i → ∃ p' out, finalExec e p = (.ok out, p') ∧ e.jsonSig (F.sigOf i) = some out ∧ PI F i 5 got p') ∧
    (¬ F.Fits i →
      ∃ p', finalExec e p = (.err .verifyFailed, p') ∧ PI F i 5 got p') := by
  obtain ⟨s1, s2, s3, s4, s5⟩ := h.s1 (by omega)
  obtain ⟨t1, t2⟩ := h.s3 (by omega)
  have hlen : p.ids.length = S.n := by rw [h.ids, F.lids]
  have hordlt : Ed.ord < 256 ^ 32 := by decide +kernel
  have hsg : ∀ j, j < S.n → sigmaOf p j = some (intBytes (F.sg j)) := by
    intro j hj
    have := h.all .three (by simp [Mk.stage]) hr j hj
    unfold sigmaOf
    rw [show p.m3 = Mk.three.slots p from rfl, this, F.parse .three j i hj hi]; rfl
  have hl0 : leNat (leFixed 32 (F.sg i)) = F.sg i := by
    rw [leNat_leFixed, Nat.mod_eq_of_lt (lt_trans (F.sg_lt i) hordlt)]
  have hsum : leNat (sumOf p (List.range S.n) (leFixed 32 (F.sg i))) = F.stot := by
    rw [leNat_sumOf h.index F.sg F.sg_lt _ _ (leFixed_length _ _) (by rw [hl0]; exact F.sg_lt i)
      (fun j hj _ => hsg j (List.mem_range.mp hj)), hl0, sum_split F.sg i _ List.nodup_range (List.mem_range.mpr hi)]
    rfl
  have hstot : F.stot < Ed.ord := Nat.mod_lt _ Ed.ord_prime.pos
  have hsl : (sumOf p (List.range S.n) (leFixed 32 (F.sg i))).length = 32 :=
    (sumOf_spec p _ _ ⟨leFixed_length _ _, by rw [hl0]; exact F.sg_lt i⟩).1
  have hbytes : sumOf p (List.range S.n) (leFixed 32 (F.sg i)) = leFixed 32 F.stot := by
    apply leNat_inj
    · rw [hsl, leFixed_length]
    · rw [hsum, leNat_leFixed, Nat.mod_eq_of_lt (lt_trans hstot hordlt)]
  have henc : Ed.bigIntToEncodedBytes (some (leNat (Ed.encode F.Rtot) : Int)) = Ed.encode F.Rtot := by
    rw [← (encodedBytes_range _ (Ed.encode_length F.Rtot)).2.2]
    exact encodedBytes_roundtrip _ (Ed.encode_length _)
  have hle : Ed.encodedBytesToBigInt (leFixed 32 F.stot) = (F.stot : Int) := by
    rw [(encodedBytes_range _ (leFixed_length _ _)).2.2, leNat_leFixed, Nat.mod_eq_of_lt (lt_trans hstot hordlt)]
  have hsigOf : sigOf p (leNat (Ed.encode F.Rtot) : Int) (leFixed 32 (F.sg i)) = F.sigOf i := by
    unfold sigOf GFacts.sigOf
    rw [hlen, hbytes, henc, hle, h.m]
  have hver : Ed.edwardsVerify e.sha512 (Ed.lawful.pt (F.AOf i)).x (Ed.lawful.pt (F.AOf i)).y (intBytes (F.mOf i))
      (leNat (Ed.encode F.Rtot) : Int) (Ed.encodedBytesToBigInt (leFixed 32 F.stot)) = true ↔
      F.Fits i := by
    unfold Ed.edwardsVerify
    rw [encodedBytes_roundtrip _ (leFixed_length _ _), henc]
    have hA : Ed.ecPointToEncodedBytes (Ed.lawful.pt (F.AOf i)).x (Ed.lawful.pt (F.AOf i)).y = Ed.encode (F.AOf i) :=
      Ed.ecPointToEncodedBytes_coords (F.AOf i)
    rw [hA, Ed.edVerify_encode _ _ _ _ _ (Ed.encode_length _) (leFixed_length _ _), leNat_leFixed,
      Nat.mod_eq_of_lt (lt_trans hstot hordlt)]
    have heq := scalar_equation (F := F)
    change _ ∧ Ed.encode F.Rtot = Ed.encode (F.stot • Ed.B - F.lamOf i • F.AOf i) ↔ _
    unfold GFacts.Fits
    constructor
    · rintro ⟨-, h⟩
      have h2 := Ed.encode_injective h
      rw [← heq] at h2
      exact sub_right_injective h2
    · intro h
      refine ⟨?_, by rw [← heq, h]⟩
      have : Ed.ord < 2 ^ 253 := by decide +kernel
      omega
  constructor
  · intro hc
    obtain ⟨out, hout⟩ := Option.isSome_iff_exists.mp (F.json (F.sigOf i))
    refine ⟨_, out, (finalExec_ok_iff e p out _).mpr ⟨leFixed 32 (F.sg i), (leNat (Ed.encode F.Rtot) : Int), Ed.lawful.pt (F.AOf i),
      t1, t2, s5, fun j hj _ => ⟨_, hsg j (by rw [← hlen]; exact hj)⟩, ?_, by rw [hsigOf]; exact hout, rfl⟩, hout, ?_⟩
    · rw [hlen, hbytes, h.m]; exact hver.mpr hc
    · exact h.done _ _ _
  · intro hc
    obtain ⟨ok, data, hconst⟩ := finalExec_const e p
    have hnv : ¬ Ed.edwardsVerify e.sha512 (Ed.lawful.pt (F.AOf i)).x (Ed.lawful.pt (F.AOf i)).y (intBytes (F.mOf i))
        (leNat (Ed.encode F.Rtot) : Int) (Ed.encodedBytesToBigInt (leFixed 32 F.stot)) = true := fun hh => hc (hver.mp hh)
    have hloop := (finalLoop_some (List.range S.n) (resetOK { p with number := 4 }) (leFixed 32 (F.sg i)) _).mpr
      ⟨fun j hj _ => ⟨_, (hsg j (List.mem_range.mp hj) : sigmaOf (resetOK { p with number := 4 }) j = _)⟩, _, rfl, rfl⟩
    have h1 : (finalExec e p).1 = .err .verifyFailed := by
      unfold finalExec
      simp only
      rw [show (resetOK { p with number := 4 }).ids.length = S.n from hlen, show (resetOK { p with number := 4 }).si = _ from t1, hloop]
      simp only
      rw [show (resetOK { p with number := 4 }).r = _ from t2]
      simp only
      rw [show (resetOK { p with number := 4 }).keys.eddsaPub = _ from s5]
      simp only
      rw [show (resetOK { p with number := 4 }).m = F.mOf i from h.m,
        show sumOf (resetOK { p with number := 4 }) (List.range S.n) (leFixed 32 (F.sg i)) = leFixed 32 F.stot from hbytes,
        if_neg hnv]
    exact ⟨_, Prod.ext h1 hconst, h.done _ _ _⟩

theorem PI.final {F : Facts e S} {i : Nat} {got : Mk → Nat → Bool} {p : Party} (h : PI F.toGFacts i 4 got p) (hi : i < S.n)
    (hr : ∀ j, j < S.n → j ≠ i → got .three j = true) :
    ∃ p' out, finalExec e p = (.ok out, p') ∧ e.jsonSig F.sig = some out ∧ PI F.toGFacts i 5 got p' :=
  by
    obtain ⟨p', out, a, b, c⟩ := (h.finish hi hr).1 (F.fits hi)
    exact ⟨p', out, a, by rw [← F.sigOf_eq hi]; exact b, c⟩

end Tss.Onsign
