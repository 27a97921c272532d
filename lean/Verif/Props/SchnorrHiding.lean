import Verif.Props.Schnorr
import Verif.Lemmas.Ed25519Enc
import Verif.Props.NonceReuse
import Mathlib.Data.Int.Interval
import Mathlib.Data.Finset.Prod
/-
C90: for each challenge a Schnorr response, a representation response and a signature share are distributed exactly as values that
anybody can make without the secret.
-/
namespace Tss.Schnorr
open Tss ECPoint

variable {c : Curve} {G : Type} [AddCommGroup G]

namespace spec

/-- The nonces: all scalars. -/
noncomputable def scalars (q : Int) : Finset Int := Finset.Ico 0 q

/-- What a prover with secret x shows for nonce a: the commitment and the response. -/
def shown (c : Curve) (x ch a : Int) : Option ECPoint × Int := (scalarBaseMult c a, Prove c.N a ch x)

/-- What somebody shows who knows the point X only: any response z, and the commitment z·G + (−ch)·X. -/
def madeUp (c : Curve) (X : ECPoint) (ch z : Int) : Option ECPoint × Int :=
  (match scalarBaseMult c z, scalarMult c X (-ch) with
    | some zG, some cX => ECPoint.add c zG cX
    | _, _ => none, z)

/-- What a prover of V = s·R + l·G shows for nonces a, b. -/
def shown2 (c : Curve) (R : ECPoint) (s l ch : Int) (d : Int × Int) : Option ECPoint × Int × Int :=
  (match scalarMult c R d.1, scalarBaseMult c d.2 with
    | some aR, some bG => ECPoint.add c aR bG
    | _, _ => none, (d.1 + ch * s) % c.N, (d.2 + ch * l) % c.N)

/-- And what somebody shows who knows V and R only: the commitment t·R + u·G + (−ch)·V. -/
def madeUp2 (c : Curve) (V R : ECPoint) (ch : Int) (d : Int × Int) : Option ECPoint × Int × Int :=
  (match scalarMult c R d.1, scalarBaseMult c d.2, scalarMult c V (-ch) with
    | some tR, some uG, some cV =>
      match ECPoint.add c tR uG with
      | some p => ECPoint.add c p cV
      | none => none
    | _, _, _ => none, d.1, d.2)

end spec
open spec

theorem mem_scalars {q : Int} (hq : 0 < q) (z : Int) : z % q ∈ scalars q :=
  Finset.mem_Ico.mpr ⟨Int.emod_nonneg _ (by omega), Int.emod_lt_of_pos _ hq⟩

theorem shift_back {q a s : Int} (ha : a ∈ scalars q) : ((a + s) % q - s) % q = a := by
  rw [Int.emod_sub_emod, add_sub_cancel_right]
  have := Finset.mem_Ico.mp ha
  exact Int.emod_eq_of_lt this.1 this.2

theorem shift_forth {q a s : Int} (ha : a ∈ scalars q) : ((a - s) % q + s) % q = a := by
  rw [Int.emod_add_emod, sub_add_cancel]
  have := Finset.mem_Ico.mp ha
  exact Int.emod_eq_of_lt this.1 this.2

theorem shown_eq (L : Lawful c G) (x ch a : Int) (X : ECPoint) (hX : scalarBaseMult c x = some X) :
    shown c x ch a = madeUp c X ch ((a + ch * x) % c.N) := by
  rw [L.scalarBaseMult_pt, Option.some.injEq] at hX
  subst hX
  have hN : c.N • (x • L.base) = 0 := by rw [smul_comm, L.N_base, smul_zero]
  unfold shown madeUp Prove
  simp only [L.scalarBaseMult_pt, L.scalarMult_pt (L.on_pt _), L.add_pt (L.on_pt _) (L.on_pt _), L.val_pt, Lawful.emod_smul hN,
    Lawful.emod_smul L.N_base]
  congr 3
  rw [add_smul, mul_smul, neg_smul, add_neg_cancel_right]

open Classical in
/-- C90: for each secret x with public point X, each challenge and each event T, as many nonces lead to a (commitment, response) pair
in T as there are responses for which the pair made up from X alone is in T. -/
theorem C90_distribution (L : Lawful c G) (x ch : Int) (X : ECPoint) (hX : scalarBaseMult c x = some X) (T : Set (Option ECPoint × Int)) :
    ((scalars c.N).filter (shown c x ch · ∈ T)).card = ((scalars c.N).filter (madeUp c X ch · ∈ T)).card := by
  refine Finset.card_nbij' (fun a => (a + ch * x) % c.N) (fun z => (z - ch * x) % c.N) ?_ ?_ ?_ ?_
  · intro a ha
    rw [Finset.mem_coe, Finset.mem_filter] at ha ⊢
    exact ⟨mem_scalars L.N_pos _, by rw [← shown_eq L x ch a X hX]; exact ha.2⟩
  · intro z hz
    rw [Finset.mem_coe, Finset.mem_filter] at hz ⊢
    refine ⟨mem_scalars L.N_pos _, ?_⟩
    rw [shown_eq L x ch _ X hX, shift_forth hz.1]
    exact hz.2
  · intro a ha
    exact shift_back (Finset.mem_filter.mp ha).1
  · intro z hz
    exact shift_forth (Finset.mem_filter.mp hz).1

/-- C90: and what is made up is accepted by the verifier, so it is not vacuous. -/
theorem C90_made_up_accepted (L : Lawful c G) (x ch z : Int) (X : ECPoint) (hX : scalarBaseMult c x = some X) :
    ∃ A, (madeUp c X ch z).1 = some A ∧ Verify c z A X ch = .ok true := by
  rw [L.scalarBaseMult_pt, Option.some.injEq] at hX
  subst hX
  have hN : c.N • (x • L.base) = 0 := by rw [smul_comm, L.N_base, smul_zero]
  unfold madeUp
  simp only [L.scalarBaseMult_pt, L.scalarMult_pt (L.on_pt _), L.add_pt (L.on_pt _) (L.on_pt _), L.val_pt, Lawful.emod_smul hN]
  refine ⟨_, rfl, ?_⟩
  obtain ⟨b, hb, hiff⟩ := C29_verify_exact L z ch (L.pt (z • L.base + -ch • x • L.base)) (L.pt (x • L.base)) (L.on_pt _) (L.on_pt _)
  rw [hb, hiff.mpr]
  rw [L.val_pt, L.val_pt, Lawful.emod_smul hN, neg_smul, neg_add_cancel_right]

/-- C90: the standalone proof shows exactly that pair, for the challenge that its verifier recomputes. -/
theorem C90_zkproof_shows (L : Lawful c G) (H : Bytes → Bytes) (session : Bytes) (x a : Int) (X : ECPoint) (hX : c.On X) :
    ∃ pf, NewZKProof H c session x X a = .ok pf ∧
      (some pf.Alpha, pf.T) = shown c x (spec_challenge H c session [X, ⟨c.Gx, c.Gy⟩, pf.Alpha]) a := by
  have hon : c.isOnCurve X.x X.y = true := hX
  unfold NewZKProof
  simp only [validateBasic, hon, L.scalarBaseMult_pt, Bool.not_true, Bool.false_eq_true, if_false]
  refine ⟨_, rfl, ?_⟩
  unfold shown Prove
  rw [L.scalarBaseMult_pt]
  rfl

theorem shown2_eq (L : Lawful c G) (s l ch : Int) (d : Int × Int) (V R : ECPoint) (hR : c.On R) (hRN : c.N • L.val R = 0) (hV : c.On V)
    (hVal : L.val V = s • L.val R + l • L.base) :
    shown2 c R s l ch d = madeUp2 c V R ch ((d.1 + ch * s) % c.N, (d.2 + ch * l) % c.N) := by
  have hVN : c.N • L.val V = 0 := by
    rw [hVal, smul_add, smul_comm, hRN, smul_zero, smul_comm, L.N_base, smul_zero, add_zero]
  unfold shown2 madeUp2
  simp only [L.scalarBaseMult_pt, L.scalarMult_pt hR, L.scalarMult_pt hV, L.add_pt (L.on_pt _) (L.on_pt _), L.val_pt,
    Lawful.emod_smul hRN, Lawful.emod_smul L.N_base, Lawful.emod_smul hVN, Prod.mk.injEq, Option.some.injEq, and_true]
  congr 1
  rw [hVal, add_smul, add_smul, mul_smul, mul_smul, neg_smul, smul_add]
  abel

open Classical in
/-- C90: the proof of a representation V = s·R + l·G, for R in the subgroup. -/
theorem C90_representation (L : Lawful c G) (s l ch : Int) (V R : ECPoint) (hR : c.On R) (hRN : c.N • L.val R = 0) (hV : c.On V)
    (hVal : L.val V = s • L.val R + l • L.base) (T : Set (Option ECPoint × Int × Int)) :
    ((scalars c.N ×ˢ scalars c.N).filter (shown2 c R s l ch · ∈ T)).card =
      ((scalars c.N ×ˢ scalars c.N).filter (madeUp2 c V R ch · ∈ T)).card := by
  refine Finset.card_nbij' (fun d => ((d.1 + ch * s) % c.N, (d.2 + ch * l) % c.N)) (fun d => ((d.1 - ch * s) % c.N, (d.2 - ch * l) % c.N)) ?_ ?_ ?_ ?_
  · intro d hd
    rw [Finset.mem_coe, Finset.mem_filter] at hd ⊢
    exact ⟨Finset.mk_mem_product (mem_scalars L.N_pos _) (mem_scalars L.N_pos _),
      by rw [← shown2_eq L s l ch d V R hR hRN hV hVal]; exact hd.2⟩
  · intro d hd
    rw [Finset.mem_coe, Finset.mem_filter] at hd ⊢
    have hm := Finset.mem_product.mp hd.1
    refine ⟨Finset.mk_mem_product (mem_scalars L.N_pos _) (mem_scalars L.N_pos _), ?_⟩
    rw [shown2_eq L s l ch _ V R hR hRN hV hVal, shift_forth hm.1, shift_forth hm.2]
    exact hd.2
  · intro d hd
    have hm := Finset.mem_product.mp (Finset.mem_filter.mp hd).1
    exact Prod.ext (shift_back hm.1) (shift_back hm.2)
  · intro d hd
    have hm := Finset.mem_product.mp (Finset.mem_filter.mp hd).1
    exact Prod.ext (shift_forth hm.1) (shift_forth hm.2)

/-- C90: a signature share is such a response.  A successful third signing round of a party with private share x and nonce k sends the
Schnorr response of x for nonce k and the signature's challenge, so C90_distribution applies to what the signer publishes. -/
theorem C90_share_is_response {e : Onsign.Env} {zs : Nat → Int} {r r' : Onsign.Reg} {key w : Bytes} {p : Onsign.Party} {x k : Int}
    (hk : r key = some p) (hx : p.keys.privXi = some x) (hx0 : 0 ≤ x ∧ x < 2 ^ 256) (hn : p.k = some k) (hn0 : 0 ≤ k ∧ k < 2 ^ 256)
    (h : Onsign.OnsignRound3Exec e zs r key = (.ok w, r')) :
    ∃ (R : Bytes) (A : ECPoint) (p' : Onsign.Party), R.length = 32 ∧ p.keys.eddsaPub = some A ∧ r' key = some p' ∧
      p'.r = some (leNat R : Int) ∧
      w = Wire.wireBytes (.sg3 (intBytes (shown Ed.curve x
        (Onsign.spec.challenge e.sha512 R (Ed.ecPointToEncodedBytes A.x A.y) (intBytes p.m)) k).2)) := by
  obtain ⟨R, A, p', h1, h2, h3, h4, h5⟩ := Onsign.C78_answer hk hx hx0 hn hn0 h
  refine ⟨R, A, p', h1, h2, h3, h4, ?_⟩
  rw [h5]
  have e1 : (((Onsign.spec.challenge e.sha512 R (Ed.ecPointToEncodedBytes A.x A.y) (intBytes p.m) * x.natAbs + k.natAbs) % Ed.ord : Nat) : Int) =
      (shown Ed.curve x (Onsign.spec.challenge e.sha512 R (Ed.ecPointToEncodedBytes A.x A.y) (intBytes p.m)) k).2 := by
    unfold shown Prove
    simp only
    have hN : Ed.curve.N = (Ed.ord : Int) := rfl
    rw [hN]
    generalize Ed.ord = o
    generalize Onsign.spec.challenge e.sha512 R (Ed.ecPointToEncodedBytes A.x A.y) (intBytes p.m) = ch
    push_cast
    rw [abs_of_nonneg hx0.1, abs_of_nonneg hn0.1, add_comm]
  rw [e1]

/-- Concrete: on the toy curve, what the owner of 3 shows for nonce 2 and challenge 4, and the same made up from the public point. -/
example : scalarBaseMult toyCurve 3 = some ⟨3, 0⟩ ∧ shown toyCurve 3 4 2 = (some ⟨2, 0⟩, 3) ∧ madeUp toyCurve ⟨3, 0⟩ 4 3 = (some ⟨2, 0⟩, 3) ∧
    shown2 toyCurve ⟨2, 0⟩ 3 1 4 (2, 5) = madeUp2 toyCurve ⟨7, 0⟩ ⟨2, 0⟩ 4 (3, 9) := by decide +kernel

end Tss.Schnorr
