import Verif.Props.KeygenTwice
import Verif.Props.NonceReuse
import Verif.Props.SignBlame
import Verif.Props.Schnorr
/-
C121: one answer of a party - in round 3 of key generation or of signing - tells nothing about its secret beyond its public share.
-/
namespace Tss
open Tss

/-! ### Counting -/

/-- For each challenge `c`: as many nonces lead the prover with secret `x` to a pair (nonce point, answer) in a set as there are answers from
which the pair in the set is made up with the public point alone. -/
theorem count_answers {G : Type} [AddCommGroup G] (q : Nat) (hq : 0 < q) (B : G) (hB : (q : Int) • B = 0) (x c : Int) (T : G × Nat → Prop) :
    Nat.card {k : Nat // k < q ∧ T (k • B, ((k + c * x) % q).toNat)} = Nat.card {s : Nat // s < q ∧ T (s • B - c • (x • B), s)} := by
  have hq0 : (0 : Int) < q := by exact_mod_cast hq
  have red : ∀ z : Int, (z % q) • B = z • B := by
    intro z
    conv_rhs => rw [← Int.emod_add_mul_ediv z q]
    rw [add_smul, mul_comm, mul_smul, hB, smul_zero, add_zero]
  have nn : ∀ z : Int, 0 ≤ z % q := fun z => Int.emod_nonneg _ hq0.ne'
  have lt : ∀ z : Int, (z % q).toNat < q := fun z => by have := Int.emod_lt_of_pos z hq0; have := nn z; omega
  have redn : ∀ z : Int, (z % q).toNat • B = z • B := by
    intro z
    rw [← natCast_zsmul, Int.toNat_of_nonneg (nn z), red]
  have back : ∀ (k : Nat) (y : Int), k < q → ((((((k : Int) + y) % q).toNat : Nat) : Int) - y) % q = k := by
    intro k y hk
    rw [Int.toNat_of_nonneg (nn _), Int.emod_sub_emod, add_sub_cancel_right, Int.emod_eq_of_lt (by omega) (by omega)]
  refine Nat.card_congr ⟨fun k => ⟨(((k.1 : Int) + c * x) % q).toNat, lt _, ?_⟩, fun s => ⟨(((s.1 : Int) - c * x) % q).toNat, lt _, ?_⟩, ?_, ?_⟩
  · have := k.2.2
    rw [redn, add_smul, mul_smul, add_sub_cancel_right, natCast_zsmul]
    exact this
  · have := s.2.2
    rw [redn, sub_smul, mul_smul, natCast_zsmul]
    have e := back s.1 (-(c * x)) s.2.1
    rw [sub_neg_eq_add, ← sub_eq_add_neg] at e
    rw [e, Int.toNat_natCast]
    exact this
  · intro k
    apply Subtype.ext
    simp only
    rw [back k.1 (c * x) k.2.1, Int.toNat_natCast]
  · intro s
    apply Subtype.ext
    simp only
    have e := back s.1 (-(c * x)) s.2.1
    rw [sub_neg_eq_add, ← sub_eq_add_neg] at e
    rw [e, Int.toNat_natCast]

end Tss

namespace Tss.Keygen
open Tss Text Wire

/-- A number below `2^256` in a message. -/
theorem prove_range {N : Int} (hN : 0 < N) (t c x : Int) : 0 ≤ Schnorr.Prove N t c x ∧ Schnorr.Prove N t c x < N :=
  ⟨Int.emod_nonneg _ hN.ne', Int.emod_lt_of_pos _ hN⟩

/-- C121. Key generation. Let a party run round 1 with nonce `tau` and later, after any calls except a new start, round 3 with success. Then the
nonce point it is committed to is tau·G, its answer is tau + c·x modulo the group order for its root key `x` and the challenge `c`; and for this
challenge, whatever the set `T`, exactly as many nonces lead to a pair of nonce point and answer in `T` as there are numbers `z` below the group
order for which the pair z·G - c·X, z - made up from the public share `X` - is in `T`. Every pair that is made up passes the check of
the peers. -/
theorem C121_keygen {e : Env} {G : Type} [AddCommGroup G] (L : Lawful e.c G) (h32 : e.c.N ≤ 256 ^ 32) {r r1 r3 : Reg} {key w1 w3 : Bytes} {rnd : Rand1}
    {p0 : Party} (hp0 : r key = some p0) (h1 : KeygenRound1Exec e rnd r key = (.ok w1, r1)) (ops : List Op) (hops : spec.After 1 key ops)
    (h3 : KeygenRound3Exec e (runOps e ops r1) key = (.ok w3, r3)) :
    ∃ (p : Party) (x c : Int) (X A : ECPoint), r3 key = some p ∧ p.save.privXi = some x ∧ ECPoint.scalarBaseMult e.c x = some X ∧
      p.save.pubXj.getD p.index none = some X ∧ ECPoint.scalarBaseMult e.c rnd.tau = some A ∧ p.commitedA = some A ∧
      c = challenge e p.ssid p.srid p.index X A ∧ spec.answer w3 = some ((rnd.tau + c * x) % e.c.N).toNat ∧
      (∀ T : G × Nat → Prop, Nat.card {t : Nat // t < e.c.N.toNat ∧ T (t • L.base, ((t + c * x) % e.c.N).toNat)} =
        Nat.card {z : Nat // z < e.c.N.toNat ∧ T (z • L.base - c • L.val X, z)}) ∧
      (∀ z : Nat, Schnorr.Verify e.c z (L.pt (z • L.base - c • L.val X)) X c = .ok true) := by
  unfold KeygenRound1Exec at h1
  rw [withParty_some _ hp0, Prod.mk.injEq] at h1
  have hk1 : r1 key = some (r1Exec e rnd p0).2 := by rw [← h1.2]; simp
  obtain ⟨q1, b1, b2⟩ := runOps_sameTau e key ops r1 _ hk1 hops
  obtain ⟨p, X, A, tau, x, a1, a2, a3, a4, a5, a6, a7⟩ := round3_call b1 h3
  obtain ⟨c1, c2, c3, c4, c5, c6⟩ := a2
  obtain ⟨d1, d2, d3, d4, d5, d6⟩ := b2
  have hN := L.N_pos
  -- what round 1 left behind
  have hX0 := L.scalarBaseMult_pt (p0.save.privXi.getD rnd.priv)
  have hA0 := L.scalarBaseMult_pt rnd.tau
  have hex : (r1Exec e rnd p0).2.tau = some rnd.tau ∧ (r1Exec e rnd p0).2.commitedA = some (L.pt (rnd.tau • L.base)) ∧
      (r1Exec e rnd p0).2.save.privXi = some (p0.save.privXi.getD rnd.priv) ∧ (r1Exec e rnd p0).2.index = p0.index ∧
      (r1Exec e rnd p0).2.save.pubXj = p0.save.pubXj.set p0.index (some (L.pt ((p0.save.privXi.getD rnd.priv) • L.base))) := by
    unfold r1Exec
    simp only [resetOK, hX0, hA0, and_self]
  obtain ⟨f1, f2, f3, f4, f5⟩ := hex
  have hx : x = p0.save.privXi.getD rnd.priv := by
    have := a6; rw [d5, f3] at this; exact (Option.some.inj this).symm
  have ht : tau = rnd.tau := by
    have := a5; rw [d1, f1] at this; exact (Option.some.inj this).symm
  have hA : A = L.pt (rnd.tau • L.base) := by
    have := a4; rw [d2, f2] at this; exact (Option.some.inj this).symm
  have hXe : X = L.pt (x • L.base) := by
    have h := a3
    rw [d4, d6, f4, f5, getD_set] at h
    split at h
    · rw [hx]; exact (Option.some.inj h).symm
    · next hn =>
      have : ¬ p0.index < p0.save.pubXj.length := fun hl => hn ⟨rfl, hl⟩
      rw [List.getD_eq_getElem?_getD, List.getElem?_eq_none (by omega)] at h
      cases h
  obtain ⟨g1, g2⟩ := prove_range hN tau (challenge e q1.ssid p.srid q1.index X A) x
  refine ⟨p, x, challenge e q1.ssid p.srid q1.index X A, X, A, a1, by rw [c5]; exact a6, by rw [hXe]; exact L.scalarBaseMult_pt x,
    by rw [c4, c6]; exact a3, by rw [hA]; exact hA0, by rw [c2]; exact a4, by rw [c3, c4], ?_, ?_, ?_⟩
  · rw [a7, answer_wire g1 (lt_of_lt_of_le g2 h32), ht]
    rfl
  · intro T
    have hn : ((e.c.N.toNat : Nat) : Int) = e.c.N := Int.toNat_of_nonneg hN.le
    have := count_answers e.c.N.toNat (by omega) L.base (by rw [hn]; exact L.N_base) x (challenge e q1.ssid p.srid q1.index X A) T
    rw [hn] at this
    rw [this, hXe, L.val_pt]
  · intro z
    generalize challenge e q1.ssid p.srid q1.index X A = c
    obtain ⟨b, hb, hiff⟩ := Schnorr.C29_verify_exact L (z : Int) c (L.pt (z • L.base - c • L.val X)) X (L.on_pt _) (by rw [hXe]; exact L.on_pt _)
    rw [hb]
    have : b = true := by
      rw [hiff, L.val_pt, natCast_zsmul]
      have : (c % e.c.N) • L.val X = c • L.val X := by
        rw [hXe, L.val_pt, smul_comm, smul_comm c]
        exact congrArg _ (Lawful.emod_smul L.N_base c)
      rw [this, sub_add_cancel]
    rw [this]

end Tss.Keygen

namespace Tss.Onsign
open Tss Text Wire

/-- C121. Signing. Let a party run rounds 1 and 2 with nonce `k` and then, with any messages at hand and after any calls that leave it alone, round 3
with success. The round-2 messages carry the point k·B, the answer is k + c·x modulo the group order for its share `x` and the challenge `c`; and
for this challenge, whatever the set `T`, exactly as many nonces lead to a pair of nonce point and answer in `T` as there are numbers `s` below the
group order for which the pair s·B - c·(x·B), s - made up from the public share x·B - is in `T`. -/
theorem C121_signing {e : Env} {zs : Nat → Int} {r r' : Reg} {key w1 w : Bytes} {M1 : List Bytes} {rnd : Rand1} {p : Party} {x : Int}
    (h2 : spec.Signed2 e key rnd w1 M1 r) (hp : r key = some p) (hx : p.keys.privXi = some x) (hx0 : 0 ≤ x ∧ x < 2 ^ 256)
    (hk : rnd.k < 2 ^ 256) (h3 : OnsignRound3Exec e zs r key = (.ok w, r')) :
    ∃ (R : Bytes) (A : ECPoint) (p' : Party) (c : Nat), p.keys.eddsaPub = some A ∧ r' key = some p' ∧ p'.r = some (leNat R : Int) ∧ R.length = 32 ∧
      c = spec.challenge e.sha512 R (Ed.ecPointToEncodedBytes A.x A.y) (intBytes p.m) ∧
      (∀ j, j < p.ids.length → ∃ prf, (GetRound2Msg r key j).1 = .ok (wireBytes (.sg2 (intBytes (Ed.coords (rnd.k • Ed.B)).1)
        (intBytes (Ed.coords (rnd.k • Ed.B)).2) prf))) ∧
      w = wireBytes (.sg3 (intBytes ((rnd.k + c * x) % Ed.ord))) ∧
      ∀ T : Ed.Point × Nat → Prop, Nat.card {k : Nat // k < Ed.ord ∧ T (k • Ed.B, ((k + c * x) % Ed.ord).toNat)} =
        Nat.card {s : Nat // s < Ed.ord ∧ T (s • Ed.B - c • (x • Ed.B), s)} := by
  obtain ⟨hr, p1, n, K, Ri, G, a0, a1, a2, a3, -, -, -, -, b1, b2, -, b3⟩ := signed2 h2
  cases hp.symm.trans a0
  have hkk : p.k = some rnd.k := by
    obtain ⟨draws, r1, r2, ops, q, hs, hq, -, g1, g2, rfl⟩ := h2
    obtain ⟨-, q', -, -, c0, -, -, -, -, -, -, -, c8, -⟩ := signed1 hs
    cases hq.symm.trans c0
    have hrun : runOps e (.exec2 key draws :: ops) r1 = runOps e ops r2 := by
      show runOps e ops (OnsignRound2Exec e draws r1 key).2 = _
      rw [g1]
    have hren : ∀ op : Op, spec.quiet op = true → op.renews = false := by
      intro op h; cases op <;> first | rfl | cases h
    obtain ⟨s, s1, s2⟩ := runOps_sameK e key (.exec2 key draws :: ops) r1 q hq (by
      intro op hm hop
      rcases List.mem_cons.mp hm with rfl | hm
      · rfl
      · exact hren op (g2 op hm hop))
    rw [hrun] at s1
    cases hp.symm.trans s1
    rw [s2.2.1, c8]
  obtain ⟨R, A, p', l1, l2, l3, l4, l5⟩ := C78_answer hp hx hx0 hkk ⟨a3, hk⟩ h3
  refine ⟨R, A, p', _, l2, l3, l4, l1, rfl, ?_, ?_, ?_⟩
  · intro j hj
    obtain ⟨ped, m, -, -, -, -, d5⟩ := b3 j hj
    have hRi : Ri = ⟨(Ed.coords (rnd.k • Ed.B)).1, (Ed.coords (rnd.k • Ed.B)).2⟩ := by
      have := Ed.lawful.scalarBaseMult_pt rnd.k
      rw [b1] at this
      exact Option.some.inj this
    refine ⟨logMarshal m, ?_⟩
    unfold GetRound2Msg
    rw [withParty_some _ _ hp]
    simp only
    unfold getMsg
    rw [if_pos ⟨by omega, by rw [a1.ls2]; omega⟩, Int.toNat_natCast, d5, hRi]
  · rw [l5]
    generalize spec.challenge e.sha512 R (Ed.ecPointToEncodedBytes A.x A.y) (intBytes p.m) = c
    have e1 : ((x.natAbs : Nat) : Int) = x := by omega
    have e2 : ((rnd.k.natAbs : Nat) : Int) = rnd.k := by omega
    have : (((c * x.natAbs + rnd.k.natAbs) % Ed.ord : Nat) : Int) = (rnd.k + c * x) % ((Ed.ord : Nat) : Int) := by
      rw [Int.natCast_mod, Nat.cast_add, Nat.cast_mul, e1, e2, add_comm]
    rw [this]
  · intro T
    generalize spec.challenge e.sha512 R (Ed.ecPointToEncodedBytes A.x A.y) (intBytes p.m) = c
    have := count_answers Ed.ord Ed.ord_prime.pos Ed.B (by rw [natCast_zsmul]; exact Ed.ord_smul_B) x (c : Int) T
    simp only [natCast_zsmul] at this
    exact this

end Tss.Onsign
