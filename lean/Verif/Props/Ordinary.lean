import Verif.Props.OnsignHonest
import Verif.Props.SigUnique
import Verif.Props.OnsignHonestEx
/-
C111: what a group of honest signers releases is an ordinary Ed25519 signature: a function of the group's secret, the sum of the nonces and the
message alone.
-/
namespace Tss.Onsign
open Tss Text Wire RangeProofs

namespace spec

/-- RFC 8032, section 5.1.6, for one signer with secret scalar `a` and nonce `k`: R = k·B, S = k + H(R ‖ A ‖ M)·a mod L, both in
32 bytes, little endian. -/
noncomputable def sign (sha512 : Bytes → Bytes) (a k : ℕ) (M : Bytes) : Bytes :=
  Ed.encode (k • Ed.B) ++
    leFixed 32 ((k + challenge sha512 (Ed.encode (k • Ed.B)) (Ed.encode (a • Ed.B)) M * a) % Ed.ord)

/-- The secret that belongs to the child key the session signs under: the sum of the signers' derived scalars. -/
def secret {e : Env} {S : Session} (H : Honest e S) : ℕ := ((List.range S.n).map fun j => beNat (H.child j)).sum

/-- The sum of the signers' nonces. -/
def nonce (S : Session) : ℕ := ((List.range S.n).map fun j => (S.rnd j).k.toNat).sum

/-- What the parties of a session return: every party that finishes, in every run, returns `out`. -/
def Releases (e : Env) (S : Session) (out : Bytes) : Prop :=
  ∀ s, Run e S s → ∀ i, i < S.n → s.stage i = 5 → s.final i = some out

end spec

variable {e : Env} {S : Session}

theorem cast_sum (f : ℕ → ℕ) (l : List ℕ) : ((l.map f).sum : ℤ) = (l.map fun j => (f j : ℤ)).sum := by
  induction l with
  | nil => rfl
  | cons a t ih => simp [ih]

theorem sum_mod (c : ℕ) (x k : ℕ → ℕ) (l : List ℕ) :
    (l.map fun j => (c * x j + k j) % Ed.ord).sum % Ed.ord = ((l.map k).sum + c * (l.map x).sum) % Ed.ord := by
  induction l with
  | nil => simp
  | cons a t ih =>
    simp only [List.map_cons, List.sum_cons]
    rw [Nat.add_mod, ih, Nat.mod_mod, ← Nat.add_mod]
    congr 1
    ring

theorem range_map_congr {α : Type} {f g : ℕ → α} {n : ℕ} (h : ∀ j, j < n → f j = g j) :
    (List.range n).map f = (List.range n).map g :=
  List.map_congr_left fun j hj => h j (by simpa using hj)

theorem sig_eq (H : Honest e S) (F : Facts e S) (f3 : F.m = (beNat H.msg : ℤ)) (f4 : F.x = H.x) :
    F.sig.signature = spec.sign e.sha512 (spec.secret H) (spec.nonce S) (H.msg.dropWhile (· = 0)) := by
  have hx : ∀ j, H.x j = (beNat (H.child j) : ℤ) := fun _ => rfl
  have hA : F.A = spec.secret H • Ed.B := by
    rw [F.A_eq]; unfold spec.secret
    rw [f4, ← natCast_zsmul, cast_sum]
    rfl
  have hR : F.Rtot = spec.nonce S • Ed.B := by
    unfold GFacts.Rtot spec.nonce
    rw [← natCast_zsmul, cast_sum]
    congr 2
    exact range_map_congr fun j hj => (Int.toNat_of_nonneg (H.nonce j hj).1).symm
  have hm : intBytes F.m = H.msg.dropWhile (· = 0) := by rw [f3, C56_signed_bytes]
  have hl : F.lam = spec.challenge e.sha512 (Ed.encode (spec.nonce S • Ed.B)) (Ed.encode (spec.secret H • Ed.B))
      (H.msg.dropWhile (· = 0)) := by
    unfold spec.challenge
    rw [F.lam_eq, hR, hA, hm]
  have hs : F.stot = (spec.nonce S + F.lam * spec.secret H) % Ed.ord := by
    unfold GFacts.stot spec.nonce spec.secret
    rw [← sum_mod]
    congr 2
    refine range_map_congr fun j hj => ?_
    rw [F.sg_eq hj, f4, hx, Int.natAbs_natCast]
    have h0 := (H.nonce j hj).1
    have : (S.rnd j).k.natAbs = (S.rnd j).k.toNat := by omega
    rw [this]
  show Ed.encode F.Rtot ++ leFixed 32 F.stot = _
  unfold spec.sign
  rw [hR, hs, hl]

/-- C111. What every finishing signer of an honest session returns holds the signature that one Ed25519 signer would make who held the whole
secret and used the sum of the nonces. -/
theorem C111_ordinary (H : Honest e S) : ∃ (sd : SigData) (out : Bytes), e.jsonSig sd = some out ∧ spec.Releases e S out ∧
    sd.signature = spec.sign e.sha512 (spec.secret H) (spec.nonce S) (H.msg.dropWhile (· = 0)) ∧
    sd.r = intBytes (leNat (sd.signature.take 32)) ∧ sd.s = intBytes (leNat (sd.signature.drop 32)) ∧
    sd.m = H.msg.dropWhile (· = 0) := by
  obtain ⟨F, f1, f2, f3, f4⟩ := H.facts
  obtain ⟨out, ho⟩ := Option.isSome_iff_exists.mp (H.json F.sig)
  have hordlt : Ed.ord < 256 ^ 32 := by decide +kernel
  have hlt : F.stot < Ed.ord := Nat.mod_lt _ Ed.ord_prime.pos
  have hd : (F.sig.signature).drop 32 = leFixed 32 F.stot := by
    show (Ed.encode F.Rtot ++ leFixed 32 F.stot).drop 32 = _
    rw [List.drop_left' (Ed.encode_length _)]
  have ht : (F.sig.signature).take 32 = Ed.encode F.Rtot := by
    show (Ed.encode F.Rtot ++ leFixed 32 F.stot).take 32 = _
    rw [List.take_left' (Ed.encode_length _)]
  refine ⟨F.sig, out, ho, ?_, sig_eq H F f3 f4, ?_, ?_, by show intBytes F.m = _; rw [f3, C56_signed_bytes]⟩
  · intro s hr i hi h5
    have hs := run_inv F.toGFacts hr
    obtain ⟨o, ho'⟩ := Option.isSome_iff_exists.mp (hs.finished i hi h5)
    rw [ho', ← ho, hs.released i o hi ho']
  · rw [ht]; exact sig_r F
  · rw [hd, leNat_leFixed, Nat.mod_eq_of_lt (lt_trans hlt hordlt)]; exact sig_s F

theorem smul_mod (a : ℕ) : (a % Ed.ord) • Ed.B = a • Ed.B := by
  have : (a % Ed.ord) ≡ a [MOD addOrderOf Ed.B] := by rw [Ed.addOrderOf_B]; exact Nat.mod_modEq _ _
  exact nsmul_eq_nsmul_iff_modEq.mpr this

/-- the signature depends on secret and nonce modulo the group order only -/
theorem sign_mod (sha512 : Bytes → Bytes) {a a' k k' : ℕ} (M : Bytes) (ha : a ≡ a' [MOD Ed.ord]) (hk : k ≡ k' [MOD Ed.ord]) :
    spec.sign sha512 a k M = spec.sign sha512 a' k' M := by
  have e1 : a • Ed.B = a' • Ed.B := by rw [← smul_mod a, ha, smul_mod]
  have e2 : k • Ed.B = k' • Ed.B := by rw [← smul_mod k, hk, smul_mod]
  unfold spec.sign
  rw [e1, e2]
  exact congrArg _ (congrArg _ (Nat.ModEq.add hk (Nat.ModEq.mul_left _ ha)))

/-- C111. Two honest sessions - with other signers, other numbers of signers, other shares and nonces, other schedules - whose secrets and sums of
nonces agree modulo the group order release the same text for the same message. So a signature tells nothing about how the secret and
the nonce were shared. -/
theorem C111_sharing_invisible {S' : Session} (H : Honest e S) (H' : Honest e S')
    (ha : spec.secret H ≡ spec.secret H' [MOD Ed.ord]) (hk : spec.nonce S ≡ spec.nonce S' [MOD Ed.ord])
    (hm : H.msg.dropWhile (· = 0) = H'.msg.dropWhile (· = 0)) :
    ∃ out, spec.Releases e S out ∧ spec.Releases e S' out := by
  obtain ⟨sd, out, a1, a2, a3, a4, a5, a6⟩ := C111_ordinary H
  obtain ⟨sd', out', b1, b2, b3, b4, b5, b6⟩ := C111_ordinary H'
  have hs : sd.signature = sd'.signature := by
    rw [a3, b3, hm]; exact sign_mod _ _ ha hk
  have : sd = sd' := by
    obtain ⟨x1, x2, x3, x4⟩ := sd
    obtain ⟨y1, y2, y3, y4⟩ := sd'
    simp only at hs a4 a5 a6 b4 b5 b6
    subst hs
    rw [a4, a5, a6, b4, b5, b6, hm]
  subst this
  rw [a1] at b1
  cases b1
  exact ⟨out, a2, b2⟩

theorem sum_but (f : ℕ → ℕ) (i n : ℕ) (hi : i < n) :
    ((List.range n).map f).sum = f i + ∑ j ∈ (Finset.range n).erase i, f j := by
  rw [← List.sum_toFinset _ List.nodup_range, List.toFinset_range]
  exact (Finset.add_sum_erase _ f (by simpa using hi)).symm

/-- C111. Each signer alone decides the first half of the signature: fix the nonces of the others; for each point t·B there is one residue
x such that every honest session with these nonces of the others releases a signature with this first half if and only if
the signer's nonce has residue x. So a nonce that is uniform modulo the group order makes R uniform on the subgroup, whatever the
others chose. -/
theorem C111_nonce_decisive (n i : ℕ) (hi : i < n) (others : ℕ → ℕ) (t : ℕ) :
    ∃ x, x < Ed.ord ∧ ∀ (e : Env) (S : Session), Honest e S → S.n = n →
      (∀ j, j < n → j ≠ i → (S.rnd j).k.toNat = others j) →
      ∃ sd out, e.jsonSig sd = some out ∧ spec.Releases e S out ∧
        (sd.signature.take 32 = Ed.encode (t • Ed.B) ↔ (S.rnd i).k.toNat % Ed.ord = x) := by
  have hpos := Ed.ord_prime.pos
  generalize ho : (∑ j ∈ (Finset.range n).erase i, others j) = o
  refine ⟨(t + (Ed.ord - 1) * o) % Ed.ord, Nat.mod_lt _ hpos, fun e S H hn hk => ?_⟩
  obtain ⟨sd, out, a1, a2, a3, -⟩ := C111_ordinary H
  refine ⟨sd, out, a1, a2, ?_⟩
  have ht : sd.signature.take 32 = Ed.encode (spec.nonce S • Ed.B) := by
    rw [a3]; unfold spec.sign; rw [List.take_left' (Ed.encode_length _)]
  have hs : spec.nonce S = (S.rnd i).k.toNat + o := by
    unfold spec.nonce
    rw [hn, sum_but _ i n hi, ← ho]
    congr 1
    exact Finset.sum_congr rfl fun j hj => hk j (by simpa using Finset.mem_of_mem_erase hj) (Finset.ne_of_mem_erase hj)
  have hz : o + (Ed.ord - 1) * o = Ed.ord * o := by
    obtain ⟨q, hq⟩ : ∃ q, Ed.ord = q + 1 := ⟨Ed.ord - 1, by omega⟩
    rw [hq]; simp only [Nat.add_sub_cancel]; ring
  rw [ht, hs]
  generalize (S.rnd i).k.toNat = k
  constructor
  · intro h
    have h1 : (k + o) ≡ t [MOD Ed.ord] := smul_B_inj (Ed.encode_injective h)
    have h2 : k + o + (Ed.ord - 1) * o ≡ t + (Ed.ord - 1) * o [MOD Ed.ord] := Nat.ModEq.add_right _ h1
    rw [add_assoc, hz] at h2
    have h3 : k + Ed.ord * o ≡ k [MOD Ed.ord] := by
      unfold Nat.ModEq; exact Nat.add_mul_mod_self_left k Ed.ord o
    exact h3.symm.trans h2
  · intro h
    have h1 : k ≡ t + (Ed.ord - 1) * o [MOD Ed.ord] := h
    have h2 : k + o ≡ t + (Ed.ord - 1) * o + o [MOD Ed.ord] := Nat.ModEq.add_right _ h1
    have e1 : t + (Ed.ord - 1) * o + o = t + Ed.ord * o := by omega
    rw [e1] at h2
    have h3 : t + Ed.ord * o ≡ t [MOD Ed.ord] := by
      unfold Nat.ModEq; exact Nat.add_mul_mod_self_left t Ed.ord o
    have h4 : (k + o) % Ed.ord = t % Ed.ord := h2.trans h3
    rw [← smul_mod (k + o), h4, smul_mod]

/-- the secret and the message are given by the arguments of the creation calls -/
theorem secret_of_args {S' : Session} (H : Honest e S) (H' : Honest e S') (hn : S'.n = S.n) (h0 : 0 < S.n)
    (ha : ∀ i, i < S.n → S'.args i = S.args i) : spec.secret H = spec.secret H' ∧ H.msg = H'.msg := by
  constructor
  · unfold spec.secret
    rw [hn]
    congr 1
    refine range_map_congr fun i hi => ?_
    have hi' : i < S'.n := by omega
    obtain ⟨b, b1, b2⟩ := H.keyData i hi
    obtain ⟨b', b1', b2'⟩ := H'.keyData i hi'
    rw [ha i hi, b1] at b1'
    cases b1'
    rw [b2] at b2'
    have hd : H.d i = H'.d i := Option.some.inj b2'
    have hx : H.x0 i = H'.x0 i := by
      have h1 := (H.priv i hi).1
      rw [hd, (H'.priv i hi').1] at h1
      exact (Option.some.inj h1).symm
    have hg : H.grp = H'.grp := by
      have h1 := H.group i hi
      rw [hd, H'.group i hi'] at h1
      exact (Option.some.inj h1).symm
    have hc : H.code i = H'.code i := by
      have h1 := H.codes i hi
      rw [hd, H'.codes i hi', hn] at h1
      have h2 := congrArg (fun l => l[i]?) h1
      simp only [List.getElem?_map, List.getElem?_range hi, Option.map_some, Option.some.injEq] at h2
      exact h2.symm
    have hp : H.path = H'.path := by
      rw [← (H.count i hi).2.2.2, ← (H'.count i hi').2.2.2, ha i hi]
    have h1 := H.derive i hi
    have h2 := H'.derive i hi'
    rw [hx, hg, hc, hp, h2] at h1
    have h3 := (Prod.mk.inj (Res.ok.inj h1)).1
    rw [h3]
  · have h1 := H.message 0 h0
    have h2 := H'.message 0 (by omega)
    rw [ha 0 h0, h1] at h2
    exact Option.some.inj h2

/-- C111. The same calls with other nonces of the same sum, and any other draws, release the same text. -/
theorem C111_same_inputs {S' : Session} (H : Honest e S) (H' : Honest e S') (hn : S'.n = S.n) (h0 : 0 < S.n)
    (ha : ∀ i, i < S.n → S'.args i = S.args i) (hk : spec.nonce S ≡ spec.nonce S' [MOD Ed.ord]) :
    ∃ out, spec.Releases e S out ∧ spec.Releases e S' out := by
  obtain ⟨h1, h2⟩ := secret_of_args H H' hn h0 ha
  exact C111_sharing_invisible H H' (by rw [h1]) hk (by rw [h2])

/-- C111, non-vacuity: for every hash function there are honest sessions of two signers with the same sum of nonces, differently shared (3 + 5 and
7 + 1), which can be run to the end. -/
theorem C111_example (sha512 : Bytes → Bytes) : ∃ S S' : Session, ∃ (H : Honest (toyEnvSha sha512) S)
    (H' : Honest (toyEnvSha sha512) S'), S.n = 2 ∧ (S.rnd 0).k ≠ (S'.rnd 0).k ∧ spec.nonce S = spec.nonce S' ∧
    spec.secret H ≡ spec.secret H' [MOD Ed.ord] ∧ H.msg.dropWhile (· = 0) = H'.msg.dropWhile (· = 0) ∧
    ∃ s, Run (toyEnvSha sha512) S s ∧ ∀ i, i < 2 → s.stage i = 5 := by
  have h1 : ∀ i : ℕ, (0 : ℤ) ≤ (if i = 0 then 3 else 5) ∧ (if i = 0 then 3 else 5 : ℤ) < 15 := by intro i; split <;> omega
  have h2 : ∀ i : ℕ, (0 : ℤ) ≤ (if i = 0 then 7 else 1) ∧ (if i = 0 then 7 else 1 : ℤ) < 15 := by intro i; split <;> omega
  obtain ⟨H⟩ := toyHonestK sha512 (fun i => if i = 0 then 3 else 5) h1
  obtain ⟨H'⟩ := toyHonestK sha512 (fun i => if i = 0 then 7 else 1) h2
  refine ⟨_, _, H, H', rfl, by decide, by decide, ?_, ?_, ?_⟩
  · rw [(secret_of_args H H' rfl (by decide) fun _ _ => rfl).1]
  · rw [(secret_of_args H H' rfl (by decide) fun _ _ => rfl).2]
  · obtain ⟨s', a, b⟩ := C55_can_finish H _ (.init (fun _ => none))
    exact ⟨s', a.run (.init _), b⟩

end Tss.Onsign
