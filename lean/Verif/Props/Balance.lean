import Verif.Props.LastRound
import Verif.Props.NonceReuse
import Verif.Props.SigUnique
/-!
C119: when a signer releases a signature among arbitrary peers, and what a signature among signers that answered
different challenges gives away.
-/
namespace Tss.Onsign
open Tss Text Wire RangeProofs
open _root_.Tss.Keygen (forJ)

/-! ### Specification -/
namespace spec

/-- The sum of `f` over all parties except `i`. -/
def sumButInt (n i : Nat) (f : Nat → Int) : Int := ((List.range n).map fun j => if j = i then 0 else f j).sum

/-- The sum of `f` over all parties except `i` and `l`. -/
def sumBut2 (n i l : Nat) (f : Nat → Int) : Int := ((List.range n).map fun j => if j = i ∨ j = l then 0 else f j).sum

/-- The numbers behind what signer `p` holds when it runs round 3: `ξ j` is behind the public share of `j`, `ρ j` behind the
nonce point in the stored round-2 message of `j` (freed of its small-order part: times 8, times `inv`, an inverse of 8). -/
structure Opens (inv : Int) (p : Party) (ρ ξ : Nat → Int) : Prop where
  shares : p.keys.pubXj = (List.range p.ids.length).map fun j => some (Ed.lawful.pt (ξ j • Ed.B))
  nonces : ∀ j, j < p.ids.length → j ≠ p.index → inv • ((8 : Int) • noncePoint (p.m2.getD j [])) = ρ j • Ed.B

/-- The challenge signer `p` with nonce `k` answers in round 3: the sum of the nonce points is the `R`, the sum of the public
shares is the key. -/
noncomputable def answered (sha512 : Bytes → Bytes) (p : Party) (k : Int) (ρ ξ : Nat → Int) : Nat :=
  challenge sha512 (Ed.encode ((k + sumButInt p.ids.length p.index ρ) • Ed.B))
    (Ed.encode (((List.range p.ids.length).map ξ).sum • Ed.B)) (intBytes p.m)

/-- Solve `(c - c') x = v` modulo the group order. -/
noncomputable def quotient (v : Int) (c c' : Nat) : Nat :=
  have : Fact Ed.ord.Prime := ⟨Ed.ord_prime⟩
  ((v : ZMod Ed.ord) / ((c : ZMod Ed.ord) - c')).val

end spec

theorem zsmul_B_iff {a b : Int} : a • Ed.B = b • Ed.B ↔ a ≡ b [ZMOD Ed.ord] := by
  rw [zsmul_eq_zsmul_iff_modEq, Ed.addOrderOf_B]

theorem sum_zsmul {g : Ed.Point} (f : Nat → Int) : ∀ l : List Nat, (l.map fun j => f j • g).sum = (l.map f).sum • g
  | [] => by simp
  | a :: t => by rw [List.map_cons, List.map_cons, List.sum_cons, List.sum_cons, add_smul, sum_zsmul f t]

theorem sumOthers_cast (n i : Nat) (f : Nat → Nat) :
    ((spec.sumOthers n i f : Nat) : Int) = spec.sumButInt n i fun j => (f j : Int) := by
  unfold spec.sumOthers spec.sumButInt
  generalize List.range n = l
  induction l with
  | nil => simp
  | cons a t ih =>
    rw [List.map_cons, List.map_cons, List.sum_cons, List.sum_cons, Nat.cast_add, ih]
    split <;> simp

theorem sumButInt_add (n i : Nat) (f g : Nat → Int) (c : Int) :
    spec.sumButInt n i (fun j => f j + c * g j) = spec.sumButInt n i f + c * spec.sumButInt n i g := by
  unfold spec.sumButInt
  generalize List.range n = l
  induction l with
  | nil => simp
  | cons a t ih =>
    simp only [List.map_cons, List.sum_cons, ih]
    split <;> ring

theorem sumButInt_all {n i : Nat} (hi : i < n) (f : Nat → Int) : f i + spec.sumButInt n i f = ((List.range n).map f).sum :=
  sum_split f i _ List.nodup_range (List.mem_range.mpr hi)

/-- verification of a scalar below the order -/
theorem verify_point (sha512 : Bytes → Bytes) (A R : Ed.Point) (m : Int) (s : Bytes) (hl : s.length = 32) (hlt : leNat s < Ed.ord) :
    Ed.edwardsVerify sha512 (Ed.lawful.pt A).x (Ed.lawful.pt A).y (intBytes m) (leNat (Ed.encode R) : Int)
      (Ed.encodedBytesToBigInt s) = true ↔
      leNat s • Ed.B = R + spec.challenge sha512 (Ed.encode R) (Ed.encode A) (intBytes m) • A := by
  have henc : Ed.bigIntToEncodedBytes (some (leNat (Ed.encode R) : Int)) = Ed.encode R := by
    rw [← (encodedBytes_range _ (Ed.encode_length R)).2.2]
    exact encodedBytes_roundtrip _ (Ed.encode_length _)
  unfold Ed.edwardsVerify
  rw [encodedBytes_roundtrip _ hl, henc]
  have hA : Ed.ecPointToEncodedBytes (Ed.lawful.pt A).x (Ed.lawful.pt A).y = Ed.encode A :=
    Ed.ecPointToEncodedBytes_coords A
  rw [hA, Ed.edVerify_encode _ _ _ _ _ (Ed.encode_length _) hl]
  change _ ∧ Ed.encode R = Ed.encode (leNat s • Ed.B - spec.challenge sha512 (Ed.encode R) (Ed.encode A) (intBytes m) • A) ↔ _
  constructor
  · rintro ⟨-, h⟩
    have h2 := Ed.encode_injective h
    rw [eq_sub_iff_add_eq] at h2
    exact h2.symm
  · intro h
    refine ⟨lt_trans hlt (by decide +kernel), ?_⟩
    rw [h, add_sub_cancel_right]

/-- what the final call does once all shares are there -/
theorem finalExec_of {e : Env} {q : Party} {A R : Ed.Point} {s0 : Bytes} (hjson : ∀ d, (e.jsonSig d).isSome)
    (h1 : q.si = some s0) (h10 : s0.length = 32 ∧ leNat s0 < Ed.ord) (h2 : q.r = some (leNat (Ed.encode R) : Int))
    (h3 : q.keys.eddsaPub = some (Ed.lawful.pt A)) (b : Nat → Bytes)
    (hb : ∀ j, j < q.ids.length → j ≠ q.index → parseWireMsg (q.m3.getD j []) = some (.sg3 (b j))) :
    ((∃ out, (finalExec e q).1 = .ok out) ↔ (leNat s0 + spec.sumOthers q.ids.length q.index fun j => spec.shareValue (b j)) • Ed.B =
      R + spec.challenge e.sha512 (Ed.encode R) (Ed.encode A) (intBytes q.m) • A) ∧
    ((¬ ∃ out, (finalExec e q).1 = .ok out) → (finalExec e q).1 = .err .verifyFailed) := by
  have hsig : ∀ j, j < q.ids.length → j ≠ q.index → sigmaOf q j = some (b j) := by
    intro j hj hji; unfold sigmaOf; rw [hb j hj hji]
  obtain ⟨c1, c2⟩ := sumOf_spec q (List.range q.ids.length) s0 h10
  have hsum := leNat_sumOf_any (p := q) rfl (List.range q.ids.length) s0 h10.1 h10.2
  have hmap : ((List.range q.ids.length).map fun j => if j = q.index then 0 else spec.shareValue ((sigmaOf q j).getD [])).sum =
      spec.sumOthers q.ids.length q.index (fun j => spec.shareValue (b j)) := by
    unfold spec.sumOthers
    congr 1
    refine List.map_congr_left fun j hj => ?_
    split
    · rfl
    · next hji => rw [hsig j (List.mem_range.mp hj) hji, Option.getD_some]
  rw [hmap] at hsum
  have hv := verify_point e.sha512 A R q.m _ c1 c2
  have hmod : leNat (sumOf q (List.range q.ids.length) s0) • Ed.B =
      (leNat s0 + spec.sumOthers q.ids.length q.index fun j => spec.shareValue (b j)) • Ed.B := by
    rw [hsum, nsmul_eq_nsmul_iff_modEq, Ed.addOrderOf_B]
    exact Nat.mod_mod _ _
  rw [hmod] at hv
  rw [← hv]
  obtain ⟨out, hout⟩ := Option.isSome_iff_exists.mp (hjson (sigOf q (leNat (Ed.encode R) : Int) s0))
  have hiff : (∃ out, (finalExec e q).1 = .ok out) ↔ Ed.edwardsVerify e.sha512 (Ed.lawful.pt A).x (Ed.lawful.pt A).y (intBytes q.m)
      (leNat (Ed.encode R) : Int) (Ed.encodedBytesToBigInt (sumOf q (List.range q.ids.length) s0)) = true := by
    constructor
    · rintro ⟨o, ho⟩
      obtain ⟨s0', r', A', b1, b2, b3, -, b5, -⟩ := (finalExec_ok_iff e q o (finalExec e q).2).mp (Prod.ext ho rfl)
      rw [h1] at b1; cases b1
      rw [h2] at b2; cases b2
      rw [h3] at b3; cases b3
      exact b5
    · intro hh
      have hok := (finalExec_ok_iff e q out _).mpr ⟨s0, _, _, h1, h2, h3, fun j hj hji => ⟨_, hsig j hj hji⟩, hh, hout, rfl⟩
      exact ⟨out, by rw [hok]⟩
  refine ⟨hiff, fun hno => ?_⟩
  have hnv := fun hh => hno (hiff.mpr hh)
  have hloop := (finalLoop_some (List.range q.ids.length) (resetOK { q with number := 4 }) s0 _).mpr
    ⟨fun j hj hji => ⟨_, (hsig j (List.mem_range.mp hj) hji : sigmaOf (resetOK { q with number := 4 }) j = _)⟩, _, rfl, rfl⟩
  unfold finalExec
  simp only
  rw [show (resetOK { q with number := 4 }).si = _ from h1, show (resetOK { q with number := 4 }).ids.length = q.ids.length from rfl,
    hloop]
  simp only
  rw [show (resetOK { q with number := 4 }).r = _ from h2]
  simp only
  rw [show (resetOK { q with number := 4 }).keys.eddsaPub = _ from h3]
  simp only
  rw [show sumOf (resetOK { q with number := 4 }) (List.range q.ids.length) s0 = sumOf q (List.range q.ids.length) s0 from rfl,
    show (resetOK { q with number := 4 }).m = q.m from rfl, if_neg hnv]

theorem r3Exec_ok_si {e : Env} {zs : Nat → Int} {p : Party} {w : Bytes} (h : (r3Exec e zs p).1 = .ok w) :
    ∃ (E : Ed.Ext) (A : ECPoint) (s0 : Bytes), p.keys.eddsaPub = some A ∧
      s0 = Ed.scMulAdd (Ed.scReduce (e.sha512 (E.toBytes ++ Ed.ecPointToEncodedBytes A.x A.y ++ intBytes p.m)))
          (Ed.bigIntToEncodedBytes p.keys.privXi) (Ed.bigIntToEncodedBytes p.k) ∧
      (r3Exec e zs p).2.r = some (Ed.encodedBytesToBigInt E.toBytes) ∧ (r3Exec e zs p).2.si = some s0 ∧
      w = wireBytes (.sg3 (intBytes (Ed.encodedBytesToBigInt s0))) ∧ (r3Exec e zs p).2.index = p.index ∧
      (r3Exec e zs p).2.ids = p.ids ∧ (r3Exec e zs p).2.m = p.m ∧ (r3Exec e zs p).2.keys = p.keys := by
  revert h
  unfold r3Exec
  generalize ECPoint.new Ed.curve Ed.curve.Gx Ed.curve.Gy = oG
  simp only
  cases oG with
  | none => intro h; cases h
  | some G =>
    simp only
    have e1 : (resetOK { p with number := 3 }).m2.length = p.m2.length := rfl
    have e2 : (resetOK { p with number := 3 }).k = p.k := rfl
    have e3 : (resetOK { p with number := 3 }).keys = p.keys := rfl
    have e4 : (resetOK { p with number := 3 }).m = p.m := rfl
    rw [e1, e2, e3, e4]
    generalize forJ (r3Step e zs G (resetOK { p with number := 3 })) (List.range p.m2.length)
      (Ed.geScalarMultBase (Ed.bigIntToEncodedBytes p.k)) = out
    rcases out with ⟨u | er | _, E⟩
    · simp only
      cases hA : p.keys.eddsaPub with
      | none => intro h; cases h
      | some A => exact fun h => ⟨E, A, _, rfl, rfl, rfl, rfl, (Res.ok.inj h).symm, rfl, rfl, rfl, rfl⟩
    · intro h; cases h
    · intro h; cases h

/-- what round 3 leaves behind -/
theorem round3_leaves : ∃ inv : Int, 8 * inv ≡ 1 [ZMOD Ed.ord] ∧ ∀ {e : Env} {zs : Nat → Int} {r r1 : Reg} {key w : Bytes} {p : Party}
    {x k : Int} {ρ ξ : Nat → Int}, Reach e r → r key = some p → p.keys.privXi = some x → (0 ≤ x ∧ x < 2 ^ 256) →
    p.k = some k → (0 ≤ k ∧ k < 2 ^ 256) → (∀ j, Ed.fe (zs j) % Ed.P ≠ 0) → OnsignRound3Exec e zs r key = (.ok w, r1) →
    spec.Opens inv p ρ ξ → ∃ p1 s0, r1 key = some p1 ∧ p1.index = p.index ∧ p1.ids = p.ids ∧ p1.m = p.m ∧ p1.keys = p.keys ∧ p1.si = some s0 ∧
      s0.length = 32 ∧ leNat s0 = (spec.answered e.sha512 p k ρ ξ * x.natAbs + k.natAbs) % Ed.ord ∧
      w = wireBytes (.sg3 (intBytes (((spec.answered e.sha512 p k ρ ξ * x.natAbs + k.natAbs) % Ed.ord : Nat) : Int))) ∧
      p1.r = some (leNat (Ed.encode ((k + spec.sumButInt p.ids.length p.index ρ) • Ed.B)) : Int) ∧
      p1.keys.eddsaPub = some (Ed.lawful.pt (((List.range p.ids.length).map ξ).sum • Ed.B)) := by
  obtain ⟨inv, hinv, hR⟩ := C78_R_is_sum
  refine ⟨inv, hinv, ?_⟩
  intro e zs r r1 key w p x k ρ ξ hreach hk hx hx0 hn hn0 hz h ho
  have hI := reach_inv hreach key p hk
  obtain ⟨p', a1, a2⟩ := hR hk hn hn0 hz h
  have hRpt : k • Ed.B + ((List.range p.m2.length).map fun j =>
      if j = p.index then 0 else inv • ((8 : Int) • spec.noncePoint (p.m2.getD j []))).sum =
      (k + spec.sumButInt p.ids.length p.index ρ) • Ed.B := by
    rw [hI.l2, add_smul]
    congr 1
    unfold spec.sumButInt
    rw [← sum_zsmul]
    congr 1
    refine List.map_congr_left fun j hj => ?_
    split
    · rw [zero_smul]
    · next hji => exact ho.nonces j (List.mem_range.mp hj) hji
  rw [hRpt] at a2
  obtain ⟨gs, g1, g2⟩ := hI.agg (by rw [hn]; exact Option.some_ne_none _)
  have hgs : gs = (List.range p.ids.length).map fun j => ξ j • Ed.B := by
    have h4 := g1.symm.trans ho.shares
    have h5 := congrArg (List.map (Option.map Ed.lawful.val)) h4
    rw [List.map_map, List.map_map] at h5
    have e1 : (Option.map Ed.lawful.val ∘ fun g => some (Ed.lawful.pt g)) = (some : Ed.Point → Option Ed.Point) := by
      funext g; simp only [Function.comp_apply, Option.map_some, Ed.lawful.val_pt]
    have e2 : (Option.map Ed.lawful.val ∘ fun j => some (Ed.lawful.pt (ξ j • Ed.B))) = (some ∘ fun j => ξ j • Ed.B) := by
      funext j; simp only [Function.comp_apply, Option.map_some, Ed.lawful.val_pt]
    rw [e1, e2, ← List.map_map] at h5
    exact (List.map_injective_iff.mpr (Option.some_injective _)) h5
  rw [hgs, sum_zsmul] at g2
  have h' := h
  unfold OnsignRound3Exec at h'
  rw [withParty_some _ _ hk, Prod.mk.injEq] at h'
  obtain ⟨h1, h2⟩ := h'
  obtain ⟨E, A, s0, hA, hs0, hr, hsi, hw, c1, c2, c3, c4⟩ := r3Exec_ok_si h1
  have hp' : p' = (r3Exec e zs p).2 := by
    rw [← h2, set_same] at a1; exact (Option.some.inj a1).symm
  subst hp'
  rw [hA] at g2
  cases g2
  have hl := toBytes_length E
  have hE : E.toBytes = Ed.encode ((k + spec.sumButInt p.ids.length p.index ρ) • Ed.B) := by
    rw [hr, (encodedBytes_range _ hl).2.2, Option.some.injEq, Int.natCast_inj] at a2
    exact leNat_inj _ _ (by rw [hl, Ed.encode_length]) a2
  obtain ⟨q1, -, q3⟩ := scMulAdd_spec (Ed.scReduce (e.sha512 (E.toBytes ++ Ed.ecPointToEncodedBytes
    (Ed.lawful.pt (((List.range p.ids.length).map ξ).sum • Ed.B)).x (Ed.lawful.pt (((List.range p.ids.length).map ξ).sum • Ed.B)).y ++
      intBytes p.m))) (Ed.bigIntToEncodedBytes p.keys.privXi) (Ed.bigIntToEncodedBytes p.k)
  rw [← hs0] at q1 q3
  rw [hx, hn, Ed.leNat_bigIntToEncodedBytes (natAbs_lt hx0.1 hx0.2),
    Ed.leNat_bigIntToEncodedBytes (natAbs_lt hn0.1 hn0.2), Ed.leNat_scReduce, hE,
    show Ed.ecPointToEncodedBytes (Ed.lawful.pt (((List.range p.ids.length).map ξ).sum • Ed.B)).x
      (Ed.lawful.pt (((List.range p.ids.length).map ξ).sum • Ed.B)).y = _ from Ed.ecPointToEncodedBytes_coords _] at q3
  refine ⟨_, s0, a1, c1, c2, c3, c4, hsi, q1, q3, ?_, a2, by rw [c4]; exact hA⟩
  rw [hw, (encodedBytes_range _ q1).2.2, q3]
  rfl

/-- the last call after round 3 -/
theorem balance_final {e : Env} {q : Party} {n i : Nat} {x k : Int} {ρ ξ : Nat → Int} {c : Nat} {s0 : Bytes} {m : Int}
    (hjson : ∀ d, (e.jsonSig d).isSome) (hi : i < n) (hx0 : 0 ≤ x) (hk0 : 0 ≤ k) (hxi : ξ i = x)
    (hc : c = spec.challenge e.sha512 (Ed.encode ((k + spec.sumButInt n i ρ) • Ed.B))
      (Ed.encode (((List.range n).map ξ).sum • Ed.B)) (intBytes m))
    (q1 : q.index = i) (q2 : q.ids.length = n) (q3 : q.m = m) (q4 : q.si = some s0) (q5 : s0.length = 32)
    (q6 : leNat s0 = (c * x.natAbs + k.natAbs) % Ed.ord)
    (q7 : q.r = some (leNat (Ed.encode ((k + spec.sumButInt n i ρ) • Ed.B)) : Int))
    (q8 : q.keys.eddsaPub = some (Ed.lawful.pt (((List.range n).map ξ).sum • Ed.B)))
    (b : Nat → Bytes) (hb : ∀ j, j < n → j ≠ i → parseWireMsg (q.m3.getD j []) = some (.sg3 (b j))) :
    ((∃ out, (finalExec e q).1 = .ok out) ↔ spec.sumButInt n i (fun j => (spec.shareValue (b j) : Int)) ≡
      spec.sumButInt n i (fun j => ρ j + c * ξ j) [ZMOD Ed.ord]) ∧
    ((¬ ∃ out, (finalExec e q).1 = .ok out) → (finalExec e q).1 = .err .verifyFailed) := by
  have hlt : leNat s0 < Ed.ord := by rw [q6]; exact Nat.mod_lt _ Ed.ord_prime.pos
  subst q1 q2 q3
  obtain ⟨h1, h2⟩ := finalExec_of hjson q4 ⟨q5, hlt⟩ q7 q8 b hb
  refine ⟨?_, h2⟩
  rw [h1, ← hc, ← natCast_zsmul, ← natCast_zsmul, ← mul_smul, ← add_smul, zsmul_B_iff, sumButInt_add,
    ← sumButInt_all hi ξ, hxi, Nat.cast_add, sumOthers_cast, q6]
  generalize spec.sumButInt q.ids.length q.index (fun j => (spec.shareValue (b j) : Int)) = V
  generalize spec.sumButInt q.ids.length q.index ρ = P
  generalize spec.sumButInt q.ids.length q.index ξ = X
  have h3 : (((c * x.natAbs + k.natAbs) % Ed.ord : Nat) : Int) ≡ c * x + k [ZMOD Ed.ord] := by
    rw [Int.natCast_mod]
    refine (Int.mod_modEq _ _).trans ?_
    push_cast
    rw [abs_of_nonneg hx0, abs_of_nonneg hk0]
  constructor
  · intro h
    have h4 := (h3.symm.add_right V).trans h
    rw [show k + P + c * (x + X) = (c * x + k) + (P + c * X) by ring] at h4
    exact Int.ModEq.add_left_cancel' _ h4
  · intro h
    refine (h3.add h).trans ?_
    rw [show k + P + c * (x + X) = (c * x + k) + (P + c * X) by ring]

/-- C119. When a signer releases a signature, whatever its peers have sent. The signer has run its third round (any state it
can be in by then) and is then only handed messages. If `ρ j` and `ξ j` are the numbers behind the nonce point and the public share
of each peer `j` and `c` is the challenge the signer answered, then its last call releases a signature exactly if the values
in the shares of the peers add up to the sum of the `ρ j + c ξ j`; otherwise it says that the verification failed. -/
theorem C119_released_iff : ∃ inv : Int, 8 * inv ≡ 1 [ZMOD Ed.ord] ∧ ∀ {e : Env} {zs : Nat → Int} {r r1 : Reg} {key w : Bytes}
    {p q : Party} {x k : Int} {ρ ξ : Nat → Int} {ops : List Op} {b : Nat → Bytes}, (∀ d, (e.jsonSig d).isSome) →
    Reach e r → r key = some p → p.keys.privXi = some x → (0 ≤ x ∧ x < 2 ^ 256) → p.k = some k → (0 ≤ k ∧ k < 2 ^ 256) →
    (∀ j, Ed.fe (zs j) % Ed.P ≠ 0) → OnsignRound3Exec e zs r key = (.ok w, r1) → spec.Opens inv p ρ ξ → ξ p.index = x →
    spec.Quiet key ops → runOps e ops r1 key = some q →
    (∀ j, j < p.ids.length → j ≠ p.index → parseWireMsg (q.m3.getD j []) = some (.sg3 (b j))) →
    ((∃ out, (OnsignFinalExec e (runOps e ops r1) key).1 = .ok out) ↔
      spec.sumButInt p.ids.length p.index (fun j => (spec.shareValue (b j) : Int)) ≡
        spec.sumButInt p.ids.length p.index (fun j => ρ j + spec.answered e.sha512 p k ρ ξ * ξ j) [ZMOD Ed.ord]) ∧
    ((¬ ∃ out, (OnsignFinalExec e (runOps e ops r1) key).1 = .ok out) →
      (OnsignFinalExec e (runOps e ops r1) key).1 = .err .verifyFailed) := by
  obtain ⟨inv, hinv, H⟩ := round3_leaves
  refine ⟨inv, hinv, ?_⟩
  intro e zs r r1 key w p q x k ρ ξ ops b hjson hreach hk hx hx0 hn hn0 hz h ho hxi hops hq hb
  obtain ⟨p1, s0, a1, a2, a3, a4, a5, a6, a7, a8, -, a10, a11⟩ := H hreach hk hx hx0 hn hn0 hz h ho
  obtain ⟨q', q1, q2⟩ := runOps_quiet e key ops r1 p1 a1 hops
  rw [hq] at q1; cases q1
  obtain ⟨_, _, _, _, hq2⟩ := q2
  unfold OnsignFinalExec
  rw [withParty_some _ _ hq]
  exact balance_final hjson (reach_inv hreach key p hk).idx hx0.1 hn0.1 hxi rfl (by rw [hq2]; exact a2) (by rw [hq2, ← a3])
    (by rw [hq2]; exact a4) (by rw [hq2]; exact a6) a7 a8 (by rw [hq2]; exact a10) (by rw [hq2]; exact a11) b hb

theorem sumBut2_split {n i l : Nat} (hl : l < n) (hli : l ≠ i) (f : Nat → Int) :
    spec.sumButInt n i f = f l + spec.sumBut2 n i l f := by
  unfold spec.sumButInt spec.sumBut2
  rw [← sum_split (fun j => if j = i then 0 else f j) l _ List.nodup_range (List.mem_range.mpr hl), if_neg hli]
  congr 2
  refine List.map_congr_left fun j _ => ?_
  by_cases h1 : j = l
  · rw [if_pos h1, if_pos (.inr h1)]
  · rw [if_neg h1]
    by_cases h2 : j = i
    · rw [if_pos h2, if_pos (.inl h2)]
    · rw [if_neg h2, if_neg (by tauto)]

theorem quotient_eq {v x : Int} {c c' : Nat} (hc : c < Ed.ord) (hc' : c' < Ed.ord) (hne : c ≠ c') (hx : 0 ≤ x ∧ x < Ed.ord)
    (h : ((c : Int) - c') * x ≡ v [ZMOD Ed.ord]) : (spec.quotient v c c' : Int) = x := by
  have : Fact Ed.ord.Prime := ⟨Ed.ord_prime⟩
  have hne' : ((c : ZMod Ed.ord) - c') ≠ 0 := by
    rw [sub_ne_zero, Ne, ZMod.natCast_eq_natCast_iff', Nat.mod_eq_of_lt hc, Nat.mod_eq_of_lt hc']
    exact hne
  have h1 := (ZMod.intCast_eq_intCast_iff _ _ _).mpr h
  push_cast at h1
  unfold spec.quotient
  have h2 : (v : ZMod Ed.ord) / ((c : ZMod Ed.ord) - c') = ((x.toNat : Nat) : ZMod Ed.ord) := by
    rw [div_eq_iff hne', ← h1, mul_comm]
    congr 1
    have h3 : ((x.toNat : Nat) : Int) = x := Int.toNat_of_nonneg hx.1
    have h4 := congrArg (Int.cast : Int → ZMod Ed.ord) h3
    rw [Int.cast_natCast] at h4
    exact h4.symm
  simp only [h2, ZMod.val_natCast]
  rw [Nat.mod_eq_of_lt]
  · exact Int.toNat_of_nonneg hx.1
  · have := hx.2
    have h0 := hx.1
    omega

/-- a share value as it is sent -/
theorem shareValue_sent {s : Nat} (h : s < Ed.ord) : parseWireMsg (wireBytes (.sg3 (intBytes (s : Int)))) = some (.sg3 (intBytes (s : Int))) ∧
    spec.shareValue (intBytes (s : Int)) = s := by
  have h2 : Ed.ord < 2 ^ 256 := by decide +kernel
  refine ⟨?_, ?_⟩
  · have lr : (intBytes (s : Int)).length ≤ 32 := by
      refine Keygen.intBytes_len (by omega) ?_
      have h3 : (s : Int) < (Ed.ord : Int) := by exact_mod_cast h
      exact lt_trans h3 (by decide +kernel)
    apply parse_wireBytes
    · simp only [Content.parts, List.mem_cons, List.not_mem_nil, or_false]
      rintro b rfl
      omega
    · refine lt_of_le_of_lt (Keygen.marshal_len _) ?_
      have h1 := Keygen.sing_len 1 (intBytes (s : Int))
      simp only [Content.fields]
      omega
  · rw [← leNat_encoded, Keygen.beNat_coord (by omega), Ed.leNat_bigIntToEncodedBytes, Int.natAbs_natCast]
    rw [Int.natAbs_natCast]
    omega

/-- C119. Two signers that did not answer the same challenge. Signer `l` has answered its challenge `c'` (with its share `x'` and nonce
`k'`); signer `i` has answered the challenge `c`, with the nonce point of `l` among those it counted and the public share of
`l` among those it holds, and is handed the answer of `l`. If `i` then releases a signature, the remaining signers know
`(c - c') x'`: it is what their shares exceed the sum of their `ρ j + c ξ j` by. So if `c` and `c'` differ they can compute
the share of signer `l`. -/
theorem C119_divided_gives_share_away : ∃ inv : Int, 8 * inv ≡ 1 [ZMOD Ed.ord] ∧ ∀ {e : Env} {zs zs' : Nat → Int} {r r1 r' r1' : Reg}
    {key key' w w' : Bytes} {p q p' : Party} {x k x' k' : Int} {ρ ξ ρ' ξ' : Nat → Int} {ops : List Op} {b : Nat → Bytes}
    {c c' : Nat}, (∀ d, (e.jsonSig d).isSome) →
    -- signer `i`
    Reach e r → r key = some p → p.keys.privXi = some x → (0 ≤ x ∧ x < 2 ^ 256) → p.k = some k → (0 ≤ k ∧ k < 2 ^ 256) →
    (∀ j, Ed.fe (zs j) % Ed.P ≠ 0) → OnsignRound3Exec e zs r key = (.ok w, r1) → spec.Opens inv p ρ ξ → ξ p.index = x →
    c = spec.answered e.sha512 p k ρ ξ →
    -- signer `l`
    Reach e r' → r' key' = some p' → p'.keys.privXi = some x' → (0 ≤ x' ∧ x' < Ed.ord) → p'.k = some k' → (0 ≤ k' ∧ k' < 2 ^ 256) →
    (∀ j, Ed.fe (zs' j) % Ed.P ≠ 0) → OnsignRound3Exec e zs' r' key' = (.ok w', r1') → spec.Opens inv p' ρ' ξ' →
    c' = spec.answered e.sha512 p' k' ρ' ξ' →
    -- the answer of `l` reaches `i`, which knows the nonce point and the public share of `l`
    p'.index < p.ids.length → p'.index ≠ p.index → ρ p'.index ≡ k' [ZMOD Ed.ord] → ξ p'.index = x' →
    spec.Quiet key ops → runOps e ops r1 key = some q → q.m3.getD p'.index [] = w' →
    (∀ j, j < p.ids.length → j ≠ p.index → parseWireMsg (q.m3.getD j []) = some (.sg3 (b j))) →
    -- and `i` finishes
    (∃ out, (OnsignFinalExec e (runOps e ops r1) key).1 = .ok out) →
    ((c : Int) - c') * x' ≡
        spec.sumBut2 p.ids.length p.index p'.index (fun j => spec.shareValue (b j) - (ρ j + c * ξ j)) [ZMOD Ed.ord] ∧
    (c ≠ c' → (spec.quotient
      (spec.sumBut2 p.ids.length p.index p'.index fun j => spec.shareValue (b j) - (ρ j + c * ξ j)) c c' : Int) = x') ∧
    (p.ids.length = 2 → c = c' ∨ x' = 0) := by
  obtain ⟨inv, hinv, H⟩ := round3_leaves
  refine ⟨inv, hinv, ?_⟩
  intro e zs zs' r r1 r' r1' key key' w w' p q p' x k x' k' ρ ξ ρ' ξ' ops b c c' hjson hreach hk hx hx0 hn hn0 hz h ho hxi hc
    hreach' hk' hx' hx0' hn' hn0' hz' h' ho' hc' hl hli hρ hξ hops hq hw hb hok
  have hord : (Ed.ord : Int) < 2 ^ 256 := by decide +kernel
  obtain ⟨p1, s0, a1, a2, a3, a4, a5, a6, a7, a8, -, a10, a11⟩ := H hreach hk hx hx0 hn hn0 hz h ho
  obtain ⟨-, -, -, -, -, -, -, -, -, -, b9, -⟩ := H hreach' hk' hx' ⟨hx0'.1, lt_trans hx0'.2 hord⟩ hn' hn0' hz' h' ho'
  obtain ⟨q', q1, q2⟩ := runOps_quiet e key ops r1 p1 a1 hops
  rw [hq] at q1; cases q1
  obtain ⟨_, _, _, _, hq2⟩ := q2
  unfold OnsignFinalExec at hok
  rw [withParty_some _ _ hq] at hok
  have hbal := (balance_final hjson (reach_inv hreach key p hk).idx hx0.1 hn0.1 hxi hc (by rw [hq2]; exact a2) (by rw [hq2, ← a3])
    (by rw [hq2]; exact a4) (by rw [hq2]; exact a6) a7 (by rw [hc]; exact a8) (by rw [hq2]; exact a10) (by rw [hq2]; exact a11) b hb).1.mp hok
  rw [← hc'] at b9
  have hs := shareValue_sent (s := (c' * x'.natAbs + k'.natAbs) % Ed.ord) (Nat.mod_lt _ Ed.ord_prime.pos)
  have hv : (spec.shareValue (b p'.index) : Int) ≡ c' * x' + k' [ZMOD Ed.ord] := by
    have h3 := hb _ hl hli
    rw [hw, b9, hs.1, Option.some.injEq] at h3
    injection h3 with h3
    rw [← h3, hs.2, Int.natCast_mod]
    refine (Int.mod_modEq _ _).trans ?_
    push_cast
    rw [abs_of_nonneg hx0'.1, abs_of_nonneg hn0'.1]
  rw [sumBut2_split hl hli, sumBut2_split hl hli, hξ] at hbal
  have hsub : spec.sumBut2 p.ids.length p.index p'.index (fun j => (spec.shareValue (b j) : Int) - (ρ j + c * ξ j)) =
      spec.sumBut2 p.ids.length p.index p'.index (fun j => (spec.shareValue (b j) : Int)) -
        spec.sumBut2 p.ids.length p.index p'.index (fun j => ρ j + c * ξ j) := by
    unfold spec.sumBut2
    generalize List.range p.ids.length = L
    induction L with
    | nil => simp
    | cons a t ih =>
      simp only [List.map_cons, List.sum_cons, ih]
      split <;> ring
  have main : ((c : Int) - c') * x' ≡
      spec.sumBut2 p.ids.length p.index p'.index (fun j => (spec.shareValue (b j) : Int) - (ρ j + c * ξ j)) [ZMOD Ed.ord] := by
    rw [hsub]
    generalize spec.sumBut2 p.ids.length p.index p'.index (fun j => (spec.shareValue (b j) : Int)) = V at hbal
    generalize spec.sumBut2 p.ids.length p.index p'.index (fun j => ρ j + c * ξ j) = T at hbal
    have h5 := (hv.symm.add_right V).trans (hbal.trans ((hρ.add_right (c * x')).add_right T))
    have h6 := (h5.symm.sub_right (c' * x' + k' + T))
    rw [show k' + c * x' + T - (c' * x' + k' + T) = ((c : Int) - c') * x' by ring,
      show c' * x' + k' + V - (c' * x' + k' + T) = V - T by ring] at h6
    exact h6
  have hcl : c < Ed.ord := by rw [hc]; exact challenge_lt _ _ _ _
  have hcl' : c' < Ed.ord := by rw [hc']; exact challenge_lt _ _ _ _
  refine ⟨main, fun hne => quotient_eq hcl hcl' hne hx0' main, fun h2 => ?_⟩
  by_cases hne : c = c'
  · exact .inl hne
  · right
    have hz : spec.sumBut2 p.ids.length p.index p'.index (fun j => (spec.shareValue (b j) : Int) - (ρ j + c * ξ j)) = 0 := by
      have hi := (reach_inv hreach key p hk).idx
      rw [h2] at hi hl ⊢
      unfold spec.sumBut2
      have h0 : 0 = p.index ∨ 0 = p'.index := by omega
      have h1 : 1 = p.index ∨ 1 = p'.index := by omega
      simp [List.range_succ, h0, h1]
    have h3 := quotient_eq hcl hcl' hne hx0' main
    rw [hz] at h3
    have : Fact Ed.ord.Prime := ⟨Ed.ord_prime⟩
    have h4 : spec.quotient 0 c c' = 0 := by
      unfold spec.quotient
      simp only
      rw [Int.cast_zero, zero_div, ZMod.val_zero]
    rw [h4] at h3
    exact h3.symm

end Tss.Onsign
