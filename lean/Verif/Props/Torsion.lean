import Verif.Props.SigUnique
import Verif.Props.Schnorr
import Verif.Props.KeygenRounds
/-!
C127: public shares outside the prime-order subgroup.  The proof a peer gives for its share in keygen rounds 3 and 4 is the
equation `z·G = A + e·X` with a challenge the whole quorum derives; membership of X in the subgroup of the base point is
never tested.  What that equation says about a share X of which only every d-th multiple lies in the subgroup, and what
becomes of signatures under a group key that is such a point.
-/
namespace Tss.Schnorr
open Tss ECPoint

variable {c : Curve} {G : Type} [AddCommGroup G]

namespace spec

/-- Some response is accepted for the share `X`, the commitment `A` and the challenge `e`. -/
def Answerable (L : Lawful c G) (A X : G) (e : Int) : Prop := ∃ z : Int, z • L.base = A + e • X

/-- `X` has index `d` over the subgroup the base point generates: exactly the multiples of `d` bring it there. -/
def Outside (L : Lawful c G) (X : G) (d : Nat) : Prop := ∀ k : Int, (∃ z : Int, k • X = z • L.base) ↔ (d : Int) ∣ k

end spec

/-- C127. One commitment answers the challenges of one residue class modulo the index of the share, and no others. -/
theorem C127_challenges (L : Lawful c G) {A X : G} {d : Nat} {e e' : Int} (hX : spec.Outside L X d)
    (h : spec.Answerable L A X e) : spec.Answerable L A X e' ↔ (d : Int) ∣ e - e' := by
  obtain ⟨z, hz⟩ := h
  rw [← hX]
  constructor
  · rintro ⟨z', hz'⟩
    exact ⟨z - z', by rw [sub_smul, sub_smul, hz, hz']; abel⟩
  · rintro ⟨w, hw⟩
    exact ⟨z - w, by rw [sub_smul, hz, ← hw, sub_smul]; abel⟩

/-- C127. So of any d consecutive challenges a commitment answers exactly one, if it answers any. -/
theorem C127_one_in_d (L : Lawful c G) {A X : G} {d : Nat} {e : Int} (hd : 0 < d) (hX : spec.Outside L X d)
    (h : spec.Answerable L A X e) (k : Int) : ∃! e', (k ≤ e' ∧ e' < k + d) ∧ spec.Answerable L A X e' := by
  have hd' : (0 : Int) < d := by exact_mod_cast hd
  have h1 := Int.emod_nonneg (e - k) (by omega : (d : Int) ≠ 0)
  have h2 := Int.emod_lt_of_pos (e - k) hd'
  refine ⟨k + (e - k) % d, ⟨⟨by omega, by omega⟩, ?_⟩, ?_⟩
  · rw [C127_challenges L hX h]
    refine ⟨(e - k) / d, ?_⟩
    have := Int.emod_add_mul_ediv (e - k) d
    linear_combination this.symm
  · rintro e' ⟨⟨h3, h4⟩, h5⟩
    rw [C127_challenges L hX h] at h5
    obtain ⟨q, hq⟩ := h5
    have : (e - k) % d = (e' - k) % d := by
      rw [show e - k = (e' - k) + d * q by linear_combination hq, Int.add_mul_emod_self_left]
    rw [this, Int.emod_eq_of_lt (by omega) (by omega)]; omega

/-- C127. The sender chooses the class: for every residue there is a point on the curve that is a commitment for it, whatever
the share is. -/
theorem C127_choice (L : Lawful c G) (X : G) (r : Int) : ∃ A, c.On A ∧ spec.Answerable L (L.val A) X r :=
  ⟨L.pt (-(r • X)), L.on_pt _, 0, by rw [L.val_pt, zero_smul]; abel⟩

/-- C127. A peer that follows the protocol except that its share carries an additional point `T` is accepted exactly when
the challenge kills T. -/
theorem C127_honest_response (L : Lawful c G) (x a ch : Int) (T : G) :
    ∃ b, Verify c (Prove c.N a ch x) (L.pt (a • L.base)) (L.pt (x • L.base + T)) ch = .ok b ∧
      (b = true ↔ (ch % c.N) • T = 0) := by
  obtain ⟨b, hb, hiff⟩ := C29_verify_exact L (Prove c.N a ch x) ch _ _ (L.on_pt (a • L.base)) (L.on_pt (x • L.base + T))
  refine ⟨b, hb, ?_⟩
  rw [hiff, L.val_pt, L.val_pt]
  unfold Prove
  have hx : c.N • (x • L.base) = 0 := by rw [smul_comm, L.N_base, smul_zero]
  rw [Lawful.emod_smul L.N_base, smul_add, Lawful.emod_smul hx, add_smul, mul_smul, ← add_assoc]
  constructor
  · intro h; exact (left_eq_add.mp h)
  · intro h; rw [h, add_zero]

/-- C127. The verifier accepts some response exactly for answerable challenges: the check of the curve on A and X, and this
equation, is all it makes. -/
theorem C127_accepts (L : Lawful c G) {A X : ECPoint} (ch : Int) (hA : c.On A) (hX : c.On X) :
    (∃ z : Int, Verify c z A X ch = .ok true) ↔ spec.Answerable L (L.val A) (L.val X) (ch % c.N) := by
  constructor
  · rintro ⟨z, hz⟩
    obtain ⟨b, hb, hiff⟩ := C29_verify_exact L z ch A X hA hX
    rw [hz] at hb; cases hb
    exact ⟨z, hiff.mp rfl⟩
  · rintro ⟨z, hz⟩
    obtain ⟨b, hb, hiff⟩ := C29_verify_exact L z ch A X hA hX
    exact ⟨z, by rw [hb, hiff.mpr hz]⟩

/-- C127. Adding shares that are in the subgroup does not change the index: one such share puts the group key outside. -/
theorem C127_sum (L : Lawful c G) {X s : G} {d : Nat} (hX : spec.Outside L X d) (hs : ∃ z : Int, s = z • L.base) :
    spec.Outside L (X + s) d := by
  obtain ⟨z, rfl⟩ := hs
  intro k
  rw [← hX k]
  constructor
  · rintro ⟨w, hw⟩
    exact ⟨w - k * z, by rw [sub_smul, ← hw, smul_add, mul_smul]; abel⟩
  · rintro ⟨w, hw⟩
    exact ⟨w + k * z, by rw [smul_add, hw, add_smul, mul_smul]⟩

/-- C127. A share has a discrete logarithm exactly when its index is 1. -/
theorem C127_index_one (L : Lawful c G) {X : G} {d : Nat} (hX : spec.Outside L X d) :
    (∃ x : Int, X = x • L.base) ↔ d = 1 := by
  have := hX 1
  rw [one_smul] at this
  rw [this]
  constructor
  · intro h; exact Nat.dvd_one.mp (by exact_mod_cast h)
  · rintro rfl; exact ⟨1, rfl⟩

end Tss.Schnorr

namespace Tss.Keygen
open Tss Schnorr Wire

/-- C127. Keygen, any history: round 4 of an honest party returns Ok only if, for every peer whose share has index d, the
challenge computed for that peer is in the one residue class modulo d that the peer's commitment answers. -/
theorem C127_round4 {G : Type} [AddCommGroup G] (e : Env) (L : Lawful e.c G) (r r' : Reg) (key : Bytes) (p : Party)
    (out : Bytes) (hr : Reach e r) (hp : r key = some p) (h : KeygenRound4Exec e r key = (.ok out, r')) (j d : Nat)
    (hj : j < p.ids.length) (hji : j ≠ p.index) {X : ECPoint} {pl : Payload} (hX : p.save.pubXj.getD j none = some X)
    (hpl : p.payload.getD j none = some pl) (hd : spec.Outside L (L.val X) d) (e0 : Int)
    (h0 : spec.Answerable L (L.val pl.commitedA) (L.val X) e0) :
    (d : Int) ∣ e0 - challenge e p.ssid p.srid j X pl.commitedA := by
  obtain ⟨-, -, -, -, -, a⟩ := C20_reachable e L r r' key p out hr hp h
  obtain ⟨z, ms, pm, X', pl', -, h2, h3, h4⟩ := a j hj hji
  rw [hX] at h2; rw [hpl] at h3
  cases h2; cases h3
  exact (C127_challenges L hd h0).mp ⟨_, h4⟩

/-- C127. The other direction: whatever the index of the share, if the peer's round-3 message carries a response to the
equation, the check of round 4 passes; only that equation is tested (the points of a message have passed the curve
check when they were stored). -/
theorem C127_round4_accepts {G : Type} [AddCommGroup G] (e : Env) (L : Lawful e.c G) (p : Party) (j : Nat) (hj : j ≠ p.index)
    {z : Bytes} {ms : List Bytes} {pm : Bytes} {X : ECPoint} {pl : Payload} (hm : parseWireMsg (p.m3.getD j []) = some (.kg3 z ms pm))
    (hX : p.save.pubXj.getD j none = some X) (hpl : p.payload.getD j none = some pl) (hXo : e.c.On X) (hAo : e.c.On pl.commitedA) :
    (r4Step e p j).1 = .ok () ↔
      (beNat z : Int) • L.base = L.val pl.commitedA + challenge e p.ssid p.srid j X pl.commitedA • L.val X := by
  obtain ⟨b, hb, hiff⟩ := Schnorr.C29_verify_exact L (beNat z) (challenge e p.ssid p.srid j X pl.commitedA) _ _ hAo hXo
  have hch : challenge e p.ssid p.srid j X pl.commitedA % e.c.N = challenge e p.ssid p.srid j X pl.commitedA := by
    unfold challenge
    exact Int.emod_emod_of_dvd _ (dvd_refl _)
  rw [hch] at hiff
  rw [← hiff]
  constructor
  · intro h
    obtain ⟨h1, -⟩ := (r4Step_ok_iff e p j (r4Step e p j).2).mp (by rw [← h])
    obtain ⟨z', ms', pm', X', pl', g1, g2, g3, g4⟩ := h1 hj
    rw [hm] at g1; rw [hX] at g2; rw [hpl] at g3
    cases g1; cases g2; cases g3
    rw [hb] at g4; cases g4; rfl
  · rintro rfl
    rw [(r4Step_ok_iff e p j p).mpr ⟨fun _ => ⟨z, ms, pm, X, pl, hm, hX, hpl, hb⟩, rfl⟩]

end Tss.Keygen

namespace Tss.Ed
open Tss Schnorr Wire

/-- C127. Every point of Ed25519 is a multiple of the base point plus one of the eight torsion points. -/
theorem C127_points (g : Point) : ∃ x m : Int, g = x • B + m • T8 := by
  have h : AddSubgroup.zmultiples (B + T8) = ⊤ := by
    apply AddSubgroup.eq_top_of_card_eq
    rw [Nat.card_zmultiples, addOrderOf_BT, card_eq]
  have hm : g ∈ AddSubgroup.zmultiples (B + T8) := by rw [h]; trivial
  obtain ⟨m, rfl⟩ := AddSubgroup.mem_zmultiples_iff.mp hm
  exact ⟨m, m, smul_add _ _ _⟩

theorem smul_B_of_eight {g : Point} (h8 : 8 • g = 0) (h : ∃ z : Int, g = z • B) : g = 0 := by
  obtain ⟨z, rfl⟩ := h
  have ho : (ord : Int) • (z • B) = 0 := by
    rw [smul_comm, natCast_zsmul, ord_smul_B, smul_zero]
  have h1 : addOrderOf (z • B) ∣ 8 := addOrderOf_dvd_of_nsmul_eq_zero h8
  have h2 : addOrderOf (z • B) ∣ ord := addOrderOf_dvd_of_nsmul_eq_zero (by rw [← natCast_zsmul]; exact ho)
  have := Nat.dvd_gcd h1 h2
  rw [show Nat.gcd 8 ord = 1 from cop_eight, Nat.dvd_one, AddMonoid.addOrderOf_eq_one_iff] at this
  exact this

theorem base_eq_B : lawful.base = B := rfl

/-- C127. A share with a torsion part T is outside, with index the order of T. -/
theorem C127_ed25519 (x : Int) {T : Point} (hT : 8 • T = 0) : Schnorr.spec.Outside lawful (x • B + T) (addOrderOf T) := by
  intro k
  rw [base_eq_B, addOrderOf_dvd_iff_zsmul_eq_zero]
  constructor
  · rintro ⟨z, hz⟩
    apply smul_B_of_eight
    · rw [smul_comm, hT, smul_zero]
    · refine ⟨z - k * x, ?_⟩
      rw [sub_smul, ← hz, smul_add, mul_smul]; abel
  · intro h
    exact ⟨k * x, by rw [smul_add, h, add_zero, mul_smul]⟩

/-- C127. The index of any point the curve check accepts is 1, 2, 4 or 8. -/
theorem C127_indices (g : Point) : ∃ d : Nat, d ∣ 8 ∧ 0 < d ∧ Schnorr.spec.Outside lawful g d := by
  obtain ⟨x, m, rfl⟩ := C127_points g
  have hT : 8 • (m • T8) = 0 := by rw [smul_comm, eight_T8, smul_zero]
  refine ⟨addOrderOf (m • T8), addOrderOf_dvd_of_nsmul_eq_zero hT, ?_, C127_ed25519 x hT⟩
  exact Nat.pos_of_dvd_of_pos (addOrderOf_dvd_of_nsmul_eq_zero hT) (by norm_num)

/-- Non-vacuity: the share `B + 4·T8` is on the curve, not in the subgroup, and has index 2: with a commitment in the subgroup
it is accepted exactly for even challenges. -/
theorem C127_case : Schnorr.spec.Outside lawful (B + (4 : Nat) • T8) 2 ∧
    curve.On (lawful.pt (B + (4 : Nat) • T8)) ∧ (¬ ∃ x : Int, B + (4 : Nat) • T8 = x • lawful.base) ∧
    ∀ a ch : Int, (∃ z : Int, Verify curve z (lawful.pt (a • B)) (lawful.pt (B + (4 : Nat) • T8)) ch = .ok true) ↔
      (2 : Int) ∣ ch % curve.N := by
  have h8 : 8 • ((4 : Nat) • T8) = 0 := by rw [smul_comm, eight_T8, smul_zero]
  have ho : addOrderOf ((4 : Nat) • T8) = 2 := by
    have : Fact (Nat.Prime 2) := ⟨Nat.prime_two⟩
    apply addOrderOf_eq_prime _ four_T8
    rw [← mul_smul]; exact eight_T8
  have h1 : Schnorr.spec.Outside lawful (B + (4 : Nat) • T8) 2 := by
    have := C127_ed25519 1 h8
    rw [ho, one_smul] at this; exact this
  refine ⟨h1, lawful.on_pt _, ?_, ?_⟩
  · rw [C127_index_one lawful h1]; norm_num
  · intro a ch
    rw [C127_accepts lawful ch (lawful.on_pt _) (lawful.on_pt _), lawful.val_pt, lawful.val_pt]
    have h0 : Schnorr.spec.Answerable lawful (a • B) (B + (4 : Nat) • T8) 0 := ⟨a, by rw [base_eq_B, zero_smul, add_zero]⟩
    rw [C127_challenges lawful h1 h0, zero_sub, dvd_neg]; rfl

end Tss.Ed

namespace Tss.Onsign
open Tss Text Wire

/-- C127. Signing under a key of index d: a signature that verifies (and so every signature the library releases, C54) has its
first half in the subgroup, where the sum of the parties' nonce points `k·B` always is, exactly when d divides the
challenge.  With nonces chosen as the protocol says, one signature in d can be made, and nobody is to blame for the others. -/
theorem C127_signature {sha512 : Bytes → Bytes} {A : Ed.Point} {msg sig : Bytes} {d : Nat}
    (hA : Schnorr.spec.Outside Ed.lawful A d) (h : spec.Verifies sha512 (Ed.encode A) msg sig) :
    (∃ k : Int, sig.take 32 = Ed.encode (k • Ed.B)) ↔ d ∣ leNat (sha512 (sig.take 32 ++ Ed.encode A ++ msg)) % Ed.ord := by
  obtain ⟨-, A', h1, -, h2⟩ := h
  have hA' := decodes_unique h1 (decodes_encode A)
  subst hA'
  generalize leNat (sha512 (sig.take 32 ++ Ed.encode A' ++ msg)) % Ed.ord = ch at h2 ⊢
  generalize leNat (sig.drop 32) = s at h2
  have key := hA (ch : Int)
  rw [Int.natCast_dvd_natCast, Ed.base_eq_B] at key
  rw [← key, h2]
  constructor
  · rintro ⟨k, hk⟩
    have := Ed.encode_injective hk
    refine ⟨s - k, ?_⟩
    rw [sub_smul, ← this, natCast_zsmul, natCast_zsmul]; abel
  · rintro ⟨z, hz⟩
    refine ⟨s - z, ?_⟩
    rw [sub_smul, ← hz, natCast_zsmul, natCast_zsmul]

/-- C127. In terms of the calls: if the final call returns a signature and the nonce points the peers sent add up to a
multiple of the base point, the hash of that signature is a multiple of the index of the group key. -/
theorem C127_released {e : Env} {r r' : Reg} {key out : Bytes} (hr : Reach e r)
    (h : OnsignFinalExec e r key = (.ok out, r')) {p : Party} {g : Ed.Point} {d : Nat} (hp : r key = some p)
    (hg : p.keys.eddsaPub = some (Ed.lawful.pt g)) (hd : Schnorr.spec.Outside Ed.lawful g d) :
    ∃ sd, e.jsonSig sd = some out ∧
      ((∃ k : Int, sd.signature.take 32 = Ed.encode (k • Ed.B)) ↔
        d ∣ leNat (e.sha512 (sd.signature.take 32 ++ Ed.encode g ++ intBytes p.m)) % Ed.ord) := by
  obtain ⟨p', A, sd, h1, h2, h3, h4, -⟩ := C54_released_signature_verifies hr h
  rw [hp] at h1; cases h1
  rw [hg] at h2; cases h2
  rw [show Ed.ecPointToEncodedBytes (Ed.lawful.pt g).x (Ed.lawful.pt g).y = Ed.encode g from
    Ed.ecPointToEncodedBytes_coords g] at h4
  exact ⟨sd, h3, C127_signature hd h4⟩

end Tss.Onsign
