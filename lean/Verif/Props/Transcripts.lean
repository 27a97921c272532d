import Verif.Props.Schnorr
import Verif.Props.NonceReuse
import Verif.Props.KeygenHonest
import Verif.Props.Ed25519Order
/-
C90: one answer per nonce tells nothing but the public values.  C91: every party's contribution decides.
-/
namespace Tss.Schnorr
open Tss ECPoint

variable {c : Curve} {G : Type} [AddCommGroup G]

theorem prove_smul (L : Lawful c G) (a ch x : Int) : Prove c.N a ch x • L.base = a • L.base + ch • (x • L.base) := by
  unfold Prove
  rw [Lawful.emod_smul L.N_base, add_smul, mul_smul]

theorem base_inj (L : Lawful c G) (hord : ∀ k : Int, k • L.base = 0 → c.N ∣ k) {a b : Int} (ha : 0 ≤ a ∧ a < c.N) (hb : 0 ≤ b ∧ b < c.N)
    (h : a • L.base = b • L.base) : a = b := by
  have hd := hord (a - b) (by rw [sub_smul, h, sub_self])
  obtain ⟨m, hm⟩ := hd
  have hN := L.N_pos
  have : m = 0 := by
    by_contra hm0
    rcases lt_or_gt_of_ne hm0 with h1 | h1
    · have : c.N * m ≤ c.N * (-1) := mul_le_mul_of_nonneg_left (by omega) hN.le
      omega
    · have : c.N * 1 ≤ c.N * m := mul_le_mul_of_nonneg_left (by omega) hN.le
      omega
  subst this
  omega

/-- C90: for every public share X = x·G and every challenge, the accepted pairs (commitment in the subgroup of the base point, response
in [0, N)) are exactly the pairs an honest prover sends, each for exactly one nonce. So nonces drawn uniformly (C89) give each accepted
pair with the same probability, and the set of accepted pairs depends on X only. -/
theorem C90_transcripts (L : Lawful c G) (hord : ∀ k : Int, k • L.base = 0 → c.N ∣ k) (x ch z : Int) (X A : ECPoint)
    (hX : scalarBaseMult c x = some X) (hA : ∃ a, scalarBaseMult c a = some A) :
    (Verify c z A X ch = .ok true ∧ 0 ≤ z ∧ z < c.N) ↔
      ∃! a : Int, (0 ≤ a ∧ a < c.N) ∧ scalarBaseMult c a = some A ∧ Prove c.N a ch x = z := by
  obtain ⟨a0, hA⟩ := hA
  rw [L.scalarBaseMult_pt] at hX hA
  simp only [Option.some.injEq] at hX hA
  subst hX hA
  have hN := L.N_pos
  obtain ⟨b, hb, hiff⟩ := C29_verify_exact L z ch _ _ (L.on_pt (a0 • L.base)) (L.on_pt (x • L.base))
  have hsm : (ch % c.N) • L.val (L.pt (x • L.base)) = ch • (x • L.base) := by
    rw [L.val_pt, Lawful.emod_smul]
    rw [smul_comm, L.N_base, smul_zero]
  rw [hsm, L.val_pt] at hiff
  constructor
  · rintro ⟨hv, hz⟩
    rw [hb] at hv
    simp only [Res.ok.injEq] at hv
    have hz' := hiff.1 hv
    refine ⟨a0 % c.N, ⟨⟨Int.emod_nonneg _ (by omega), Int.emod_lt_of_pos _ hN⟩, ?_, ?_⟩, ?_⟩
    · rw [L.scalarBaseMult_pt, Lawful.emod_smul L.N_base]
    · refine base_inj L hord (C28_response_range _ _ _ _ hN) hz ?_
      rw [prove_smul, Lawful.emod_smul L.N_base, hz']
    · rintro a ⟨ha, ha', -⟩
      rw [L.scalarBaseMult_pt, Option.some.injEq, L.pt_inj] at ha'
      refine base_inj L hord ha ⟨Int.emod_nonneg _ (by omega), Int.emod_lt_of_pos _ hN⟩ ?_
      rw [ha', Lawful.emod_smul L.N_base]
  · rintro ⟨a, ⟨-, ha', rfl⟩, -⟩
    rw [L.scalarBaseMult_pt, Option.some.injEq, L.pt_inj] at ha'
    refine ⟨?_, C28_response_range _ _ _ _ hN⟩
    rw [hb, Res.ok.injEq]
    apply hiff.2
    rw [prove_smul, ha']

/-- C90, the simulator: without the secret, for every challenge and every response z in [0, N) there is exactly one commitment in the
subgroup that makes (A, z) accepted, and exactly one nonce with which the honest prover answers z; the two belong together. -/
theorem C90_simulate (L : Lawful c G) (hord : ∀ k : Int, k • L.base = 0 → c.N ∣ k) (x ch z : Int) (hz : 0 ≤ z ∧ z < c.N) (X : ECPoint)
    (hX : scalarBaseMult c x = some X) :
    (∃! A : ECPoint, (∃ a, scalarBaseMult c a = some A) ∧ Verify c z A X ch = .ok true) ∧
    (∃! a : Int, (0 ≤ a ∧ a < c.N) ∧ Prove c.N a ch x = z) ∧
    ∀ a, Prove c.N a ch x = z → ∃ A, scalarBaseMult c a = some A ∧ Verify c z A X ch = .ok true := by
  have hN := L.N_pos
  have hp : Prove c.N ((z - ch * x) % c.N) ch x = z := by
    unfold Prove
    rw [Int.emod_add_emod, sub_add_cancel, Int.emod_eq_of_lt hz.1 hz.2]
  have hr : ∀ t : Int, 0 ≤ t % c.N ∧ t % c.N < c.N := fun t => ⟨Int.emod_nonneg _ (by omega), Int.emod_lt_of_pos _ hN⟩
  have third : ∀ a, Prove c.N a ch x = z → ∃ A, scalarBaseMult c a = some A ∧ Verify c z A X ch = .ok true := by
    intro a ha
    refine ⟨L.pt (a • L.base), L.scalarBaseMult_pt a, ?_⟩
    rw [← ha]
    exact C28_prove_verify L x a ch X _ hX (L.scalarBaseMult_pt a)
  refine ⟨?_, ?_, third⟩
  · obtain ⟨A, hA, hv⟩ := third _ hp
    refine ⟨A, ⟨⟨_, hA⟩, hv⟩, ?_⟩
    rintro A' ⟨⟨a', hA'⟩, hv'⟩
    obtain ⟨b', ⟨hb', e1, e2⟩, -⟩ := (C90_transcripts L hord x ch z X A' hX ⟨_, hA'⟩).1 ⟨hv', hz⟩
    obtain ⟨b, ⟨hb, f1, f2⟩, -⟩ := (C90_transcripts L hord x ch z X A hX ⟨_, hA⟩).1 ⟨hv, hz⟩
    have : b' • L.base = b • L.base := by
      have g1 := prove_smul L b' ch x
      have g2 := prove_smul L b ch x
      rw [e2] at g1; rw [f2] at g2
      exact add_right_cancel (g1.symm.trans g2)
    have : b' = b := base_inj L hord hb' hb this
    subst this
    rw [e1] at f1
    exact Option.some.inj f1
  · refine ⟨_, ⟨hr _, hp⟩, ?_⟩
    rintro a ⟨ha, ha'⟩
    refine base_inj L hord ha (hr _) ?_
    have g1 := prove_smul L a ch x
    rw [ha'] at g1
    have g2 := prove_smul L ((z - ch * x) % c.N) ch x
    rw [hp] at g2
    exact add_right_cancel (g1.symm.trans g2)

/-- The hypothesis on the base point holds for Ed25519. -/
theorem ed_order : ∀ k : Int, k • Ed.lawful.base = 0 → Ed.curve.N ∣ k := by
  intro k h
  have h' : k • Ed.B = 0 := h
  have := addOrderOf_dvd_iff_zsmul_eq_zero.2 h'
  rw [Ed.addOrderOf_B] at this
  exact this

/-- C90 on Ed25519, no hypothesis left: the accepted transcripts for a public share are the honest ones. -/
theorem C90_ed25519 (x ch z : Int) (X A : ECPoint) (hX : scalarBaseMult Ed.curve x = some X) (hA : ∃ a, scalarBaseMult Ed.curve a = some A) :
    (Verify Ed.curve z A X ch = .ok true ∧ 0 ≤ z ∧ z < Ed.curve.N) ↔
      ∃! a : Int, (0 ≤ a ∧ a < Ed.curve.N) ∧ scalarBaseMult Ed.curve a = some A ∧ Prove Ed.curve.N a ch x = z :=
  C90_transcripts Ed.lawful ed_order x ch z X A hX hA

end Tss.Schnorr

namespace Tss.Onsign
open Tss Text Wire

/-- C90: what the third round of a party hands out can be made up from public values: it is a number s below the group order, with
s·G = R_i + c·X_i for the party's nonce point R_i, public share X_i and the challenge c of the R the party stores; and for all R_i, X_i, c, every s that satisfies
this is what the party answers with exactly one nonce in [0, order). -/
theorem C90_share {e : Env} {zs : Nat → Int} {r r' : Reg} {key w : Bytes} {p : Party} {x k : Int} (hk : r key = some p)
    (hx : p.keys.privXi = some x) (hx0 : 0 ≤ x ∧ x < 2 ^ 256) (hn : p.k = some k) (hn0 : 0 ≤ k ∧ k < Ed.ord)
    (h : OnsignRound3Exec e zs r key = (.ok w, r')) :
    ∃ (R : Bytes) (A : ECPoint) (p' : Party) (s : Nat), R.length = 32 ∧ p.keys.eddsaPub = some A ∧ r' key = some p' ∧
      p'.r = some (leNat R : Int) ∧ w = wireBytes (.sg3 (intBytes (s : Int))) ∧ s < Ed.ord ∧
      (s : Int) • Ed.B = k • Ed.B + (spec.challenge e.sha512 R (Ed.ecPointToEncodedBytes A.x A.y) (intBytes p.m) : Int) • (x • Ed.B) ∧
      ∀ s' : Nat, s' < Ed.ord → ∃! k' : Nat, k' < Ed.ord ∧
        (spec.challenge e.sha512 R (Ed.ecPointToEncodedBytes A.x A.y) (intBytes p.m) * x.natAbs + k') % Ed.ord = s' := by
  have hord : (Ed.ord : Int) < 2 ^ 256 := by decide +kernel
  obtain ⟨R, A, p', hR, hA, hp', hpr, hw⟩ := C78_answer hk hx hx0 hn ⟨hn0.1, lt_trans hn0.2 hord⟩ h
  refine ⟨R, A, p', _, hR, hA, hp', hpr, hw, Nat.mod_lt _ Ed.ord_prime.pos, ?_, ?_⟩
  · have hz : ∀ t : Nat, ((t % Ed.ord : Nat) : Int) • Ed.B = (t : Int) • Ed.B := by
      intro t
      rw [natCast_zsmul, natCast_zsmul]
      conv_rhs => rw [← Nat.mod_add_div t Ed.ord]
      rw [add_smul, mul_comm, mul_smul, Ed.ord_smul_B, smul_zero, add_zero]
    rw [hz]
    push_cast
    rw [abs_of_nonneg hx0.1, abs_of_nonneg hn0.1, add_smul, mul_smul, add_comm]
  · intro s' hs'
    generalize spec.challenge e.sha512 R (Ed.ecPointToEncodedBytes A.x A.y) (intBytes p.m) * x.natAbs = T
    generalize Ed.ord = q at *
    have hq : 0 < q := by omega
    have hm := Nat.mod_lt T hq
    have hd := Nat.div_add_mod T q
    have uniq : ∀ a b, a < q → b < q → (T + a) % q = (T + b) % q → a = b := by
      intro a b ha hb hab
      have : a % q = b % q := Nat.ModEq.add_left_cancel' T hab
      rwa [Nat.mod_eq_of_lt ha, Nat.mod_eq_of_lt hb] at this
    refine ⟨(s' + (q - T % q)) % q, ⟨Nat.mod_lt _ hq, ?_⟩, ?_⟩
    · rw [Nat.add_mod_mod]
      have : T + (s' + (q - T % q)) = s' + q * (T / q + 1) := by
        rw [Nat.mul_add]; omega
      rw [this, Nat.add_mul_mod_self_left, Nat.mod_eq_of_lt hs']
    · rintro k' ⟨h1, h2⟩
      refine uniq _ _ h1 (Nat.mod_lt _ hq) ?_
      rw [h2, Nat.add_mod_mod]
      have : T + (s' + (q - T % q)) = s' + q * (T / q + 1) := by
        rw [Nat.mul_add]; omega
      rw [this, Nat.add_mul_mod_self_left, Nat.mod_eq_of_lt hs']

end Tss.Onsign

namespace Tss.Keygen
open Tss Text Wire

variable {G : Type} [AddCommGroup G]

/-- The session in which party i contributes b to the common randomness, and is otherwise the same. -/
def Session.withRandomness (S : Session) (i : Nat) (b : Bytes) : Session :=
  { S with rnd := fun j => if j = i then { S.rnd j with srid := b } else S.rnd j }

/-- The session in which party i has another root key, and is otherwise the same. -/
def Session.withRoot (S : Session) (i : Nat) (root : Bytes) : Session :=
  { S with root := fun j => if j = i then root else S.root j }

theorem good_withRandomness {e : Env} {L : Lawful e.c G} {S : Session} (hg : Good e L S) (i : Nat) (b : Bytes) (hb : b.length = 32) :
    Good e L (S.withRandomness i b) where
  keys := hg.keys
  ids := hg.ids
  roots := hg.roots
  json := hg.json
  sizes :=
    { coords := hg.sizes.coords
      order := hg.sizes.order
      hash := hg.sizes.hash
      draws := by
        intro j hj
        have := hg.sizes.draws j hj
        unfold Session.withRandomness
        simp only
        split
        · exact ⟨by simp only; omega, this.2⟩
        · exact this }

theorem good_withRoot {e : Env} {L : Lawful e.c G} {S : Session} (hg : Good e L S) (i : Nat) (root b : Bytes)
    (hb : hexDecode root = some b) : Good e L (S.withRoot i root) where
  keys := hg.keys
  ids := hg.ids
  roots := by
    intro j hj
    unfold Session.withRoot
    simp only
    split
    · exact ⟨b, hb⟩
    · exact hg.roots j hj
  json := hg.json
  sizes := ⟨hg.sizes.coords, hg.sizes.order, hg.sizes.hash, hg.sizes.draws⟩

theorem xorBytes_cancel_left {a b : Bytes} (h : b.length ≤ a.length) : xorBytes b (xorBytes b a) = a := by
  rw [xorBytes_comm b (xorBytes b a), xorBytes_comm b a]
  exact xorBytes_cancel a b h

theorem common_with (S : Session) (i : Nat) (hi : i < S.n) (b : Bytes) :
    common (S.withRandomness i b) = xorBytes b (xorAll (((List.range S.n).filter fun j => j ≠ i).map fun j => (S.rnd j).srid)) := by
  unfold common
  have h := xor_split (fun j => ((S.withRandomness i b).rnd j).srid) i (List.range S.n) List.nodup_range (by simpa using hi)
  change xorAll ((List.range S.n).map fun j => ((S.withRandomness i b).rnd j).srid) = _
  rw [← h]
  have h1 : ((S.withRandomness i b).rnd i).srid = b := by unfold Session.withRandomness; simp
  rw [h1]
  congr 2
  apply List.map_congr_left
  intro j hj
  have : j ≠ i := by simpa using (List.mem_filter.1 hj).2
  unfold Session.withRandomness
  simp [this]

/-- C91: the common randomness of a key generation is decided by each party alone: fix what all others contribute; for every target of
32 bytes there is exactly one contribution of party i with which the parties end up with it - in every run, at every party. -/
theorem C91_randomness (e : Env) (L : Lawful e.c G) (S : Session) (hg : Good e L S)
    (h32 : ∀ j, j < S.n → (S.rnd j).srid.length = 32) (i : Nat) (hi : i < S.n) (T : Bytes) (hT : T.length = 32) :
    ∃ b : Bytes, b.length = 32 ∧ ∀ b' : Bytes, b'.length = 32 → ∀ s, Run e (S.withRandomness i b') s → ∀ j, j < S.n → 4 ≤ s.stage j →
      ∃ p, s.reg (S.key j) = some p ∧ (p.srid = T ↔ b' = b) := by
  have hlen : (xorAll (((List.range S.n).filter fun j => j ≠ i).map fun j => (S.rnd j).srid)).length ≤ 32 := by
    apply xorAll_length_le
    intro b hb
    obtain ⟨j, hj, rfl⟩ := List.mem_map.1 hb
    have := (List.mem_filter.1 hj).1
    exact (h32 j (by simpa using this)).le
  have hc := common_with S i hi
  generalize xorAll (((List.range S.n).filter fun j => j ≠ i).map fun j => (S.rnd j).srid) = O at hc hlen
  refine ⟨xorBytes T O, by rw [xorBytes_length]; omega, ?_⟩
  intro b' hb' s hr j hj h4
  rcases (run_inv (good_withRandomness hg i b' hb') hr).party j hj with h0 | ⟨p, hp, hI⟩
  · omega
  · refine ⟨p, hp, ?_⟩
    rw [hI.srid2 h4, hc]
    constructor
    · intro h
      rw [← h, xorBytes_cancel _ _ (by omega)]
    · rintro rfl
      rw [xorBytes_cancel _ _ (by omega)]

theorem sum_with (S : Session) (i : Nat) (hi : i < S.n) (root b : Bytes) (hb : hexDecode root = some b) :
    ((List.range S.n).map (S.withRoot i root).x).sum = ((List.range S.n).map S.x).sum - S.x i + beNat b := by
  have key : ∀ l : List Nat, l.Nodup → i ∈ l → (l.map (S.withRoot i root).x).sum = (l.map S.x).sum - S.x i + beNat b := by
    have hxi : (S.withRoot i root).x i = beNat b := by
      unfold Session.x Session.withRoot; simp [hb]
    have hxj : ∀ j, j ≠ i → (S.withRoot i root).x j = S.x j := by
      intro j hj; unfold Session.x Session.withRoot; simp [hj]
    intro l
    induction l with
    | nil => intro _ h; simp at h
    | cons a t ih =>
      intro hn hm
      rw [List.map_cons, List.map_cons, List.sum_cons, List.sum_cons]
      rw [List.nodup_cons] at hn
      by_cases ha : a = i
      · subst ha
        have : t.map (S.withRoot a root).x = t.map S.x := by
          apply List.map_congr_left
          intro j hj
          exact hxj j (fun e => hn.1 (e ▸ hj))
        rw [this, hxi]
        omega
      · rw [hxj a ha, ih hn.2 (by simpa [Ne.symm ha] using hm)]
        omega
  exact key _ List.nodup_range (by simpa using hi)

/-- C91: the group key is decided by each party alone: fix all other root keys; for every target key t·G there is exactly one residue x
such that the parties end up with the target - in every run, at every party - if and only if the root key of party i is x modulo the
order. So no choice of the others excludes or prefers a group key. -/
theorem C91_group_key (e : Env) (L : Lawful e.c G) (hord : ∀ k : Int, k • L.base = 0 → e.c.N ∣ k) (S : Session) (hg : Good e L S)
    (i : Nat) (hi : i < S.n) (t : Int) :
    ∃ x : Int, 0 ≤ x ∧ x < e.c.N ∧ ∀ root b : Bytes, hexDecode root = some b → ∀ s, Run e (S.withRoot i root) s →
      ∀ j, j < S.n → s.stage j = 5 →
      ∃ p, s.reg (S.key j) = some p ∧ (p.save.eddsaPub = some (L.pt (t • L.base)) ↔ (beNat b : Int) % e.c.N = x) := by
  have hN := L.N_pos
  refine ⟨(t - (((List.range S.n).map S.x).sum - S.x i)) % e.c.N, Int.emod_nonneg _ (by omega), Int.emod_lt_of_pos _ hN, ?_⟩
  intro root b hb s hr j hj h5
  obtain ⟨p, sv, out, h1, -, -, h2, -⟩ := C21_agreement e L _ (good_withRoot hg i root b hb) s hr j hj h5
  refine ⟨p, h1, ?_⟩
  rw [h2, Option.some.injEq, L.pt_inj]
  change ((List.range S.n).map (S.withRoot i root).x).sum • L.base = _ ↔ _
  rw [sum_with S i hi root b hb]
  generalize ((List.range S.n).map S.x).sum - S.x i = o
  constructor
  · intro h
    have := hord (o + beNat b - t) (by rw [sub_smul, h, sub_self])
    apply Int.emod_emod_of_dvd _ (dvd_refl _) |>.symm.trans
    rw [Int.emod_emod]
    rw [Int.emod_eq_emod_iff_emod_sub_eq_zero]
    apply Int.emod_eq_zero_of_dvd
    have e1 : (beNat b : Int) - (t - o) = o + beNat b - t := by ring
    rw [e1]; exact this
  · intro h
    rw [Int.emod_eq_emod_iff_emod_sub_eq_zero] at h
    obtain ⟨m, hm⟩ := Int.dvd_of_emod_eq_zero h
    have e1 : o + (beNat b : Int) = t + e.c.N * m := by omega
    rw [e1, add_smul, mul_comm, mul_smul, L.N_base, smul_zero, add_zero]

/-- C91, non-vacuity: the toy session of C21 with three parties meets the hypotheses once its contributions have 32 bytes, and its base
point has order N; its updated sessions are completed (C21_can_finish). -/
theorem C91_example : ∃ S : Session, Good exEnv toyLawful S ∧ S.n = 3 ∧ (∀ j, j < S.n → (S.rnd j).srid.length = 32) ∧
    (∀ k : Int, k • toyLawful.base = 0 → toyCurve.N ∣ k) ∧
    ∀ b : Bytes, b.length = 32 → ∃ s, Run exEnv (S.withRandomness 1 b) s ∧ ∀ j, j < 3 → s.stage j = 5 := by
  have h0 := good_withRandomness (good_withRandomness (good_withRandomness exGood 0 (List.replicate 32 1) rfl) 1 (List.replicate 32 2) rfl)
    2 (List.replicate 32 3) rfl
  refine ⟨_, h0, rfl, ?_, ?_, ?_⟩
  · intro j hj
    have : j = 0 ∨ j = 1 ∨ j = 2 := by
      have : j < 3 := hj
      omega
    rcases this with rfl | rfl | rfl <;> rfl
  · intro k h
    have h1 : k • ((1 : ZMod 11), (0 : ZMod 8)) = 0 := h
    have h2 := congrArg Prod.fst h1
    rw [Prod.smul_fst, zsmul_one] at h2
    exact (ZMod.intCast_zmod_eq_zero_iff_dvd k 11).1 h2
  · intro b hb
    obtain ⟨s', h1, h2⟩ := C21_can_finish exEnv toyLawful _ (good_withRandomness h0 1 b hb) _ (.init (fun _ => none))
    exact ⟨s', Steps.run h1 (.init _), h2⟩

end Tss.Keygen
