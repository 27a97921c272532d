import Verif.Props.NonceReuse
import Verif.Lemmas.Ed25519Order
/-! C92: a released signature is determined by its first half, and two signatures with one first half reveal the key. -/
namespace Tss.Ed
open Tss Edw

/-- a point is determined by y and, unless x is 0, the parity of x -/
theorem ext_of_parity {g h : Point} (hy : g.y = h.y) (hp : g.x ≠ 0 → h.x ≠ 0 → (g.x.val % 2 = 1 ↔ h.x.val % 2 = 1)) : g = h := by
  have g1 := g.on
  have h1 := h.on
  unfold OnC at g1 h1
  obtain ⟨i, hi⟩ := complete.sq
  have hne : 1 + d * h.y ^ 2 ≠ 0 := by
    intro h0
    by_cases hz : h.y = 0
    · rw [hz] at h0; simp at h0
    · apply complete.nsq (i / h.y)
      field_simp
      linear_combination hi - h0
  have hx2 : (g.x - h.x) * (g.x + h.x) = 0 := by
    have : (1 + d * h.y ^ 2) * ((g.x - h.x) * (g.x + h.x)) = 0 := by
      rw [hy] at g1
      linear_combination h1 - g1
    rcases mul_eq_zero.mp this with h' | h'
    · exact absurd h' hne
    · exact h'
  have hx : g.x = h.x := by
    rcases mul_eq_zero.mp hx2 with h' | h'
    · linear_combination h'
    · have hgx : g.x = -h.x := by linear_combination h'
      by_cases hz : h.x = 0
      · rw [hgx, hz, neg_zero]
      · exfalso
        have hz' : g.x ≠ 0 := by rw [hgx]; exact neg_ne_zero.2 hz
        have hpar := hp hz' hz
        have hv : g.x.val = P - h.x.val := by
          rw [hgx, ZMod.neg_val, if_neg hz]
        have hv0 : h.x.val ≠ 0 := by
          intro h0; exact hz ((ZMod.val_eq_zero _).mp h0)
        have hlt := ZMod.val_lt h.x
        have hodd : P % 2 = 1 := by decide +kernel
        omega
  exact Pt.ext hx hy

end Tss.Ed

namespace Tss.Onsign
open Tss Text Wire

theorem decodes_unique {pub : Bytes} {A A' : Ed.Point} (h : spec.Decodes pub A) (h' : spec.Decodes pub A') : A = A' := by
  obtain ⟨-, hy, hs⟩ := h
  obtain ⟨-, hy', hs'⟩ := h'
  exact Ed.ext_of_parity (hy.trans hy'.symm) fun h1 h2 => (hs h1).trans (hs' h2).symm

theorem smul_B_inj {a b : Nat} (h : a • Ed.B = b • Ed.B) : a % Ed.ord = b % Ed.ord := by
  have h4 := (nsmul_eq_nsmul_iff_modEq).mp h
  rw [Ed.addOrderOf_B] at h4
  exact h4

/-- C92. For each key, message and first half there is at most one signature whose second half is below the group order (as that of every
released signature is, C54). -/
theorem C92_unique {sha512 : Bytes → Bytes} {pub msg sig sig' : Bytes} (h : spec.Verifies sha512 pub msg sig)
    (h' : spec.Verifies sha512 pub msg sig') (hR : sig.take 32 = sig'.take 32) (hs : leNat (sig.drop 32) < Ed.ord)
    (hs' : leNat (sig'.drop 32) < Ed.ord) : sig = sig' := by
  obtain ⟨hl, A, hA, -, e1⟩ := h
  obtain ⟨hl', A', hA', -, e2⟩ := h'
  obtain rfl := decodes_unique hA hA'
  rw [← hR] at e2
  have h3 := Ed.encode_injective (e1.symm.trans e2)
  have h4 := smul_B_inj (sub_left_injective h3)
  rw [Nat.mod_eq_of_lt hs, Nat.mod_eq_of_lt hs'] at h4
  rw [← List.take_append_drop 32 sig, ← List.take_append_drop 32 sig', hR,
    leNat_inj (sig.drop 32) (sig'.drop 32) (by simp [hl, hl']) h4]

/-- C92. Two signers - whoever they are, in whatever processes, with whatever other parties and histories - that sign one message under
one group key and release records with the same R release the same text. -/
theorem C92_records_agree {e : Env} {r r' r2 r2' : Reg} {key key' out out' : Bytes} (hr : Reach e r) (hr' : Reach e r')
    (h : OnsignFinalExec e r key = (.ok out, r2)) (h' : OnsignFinalExec e r' key' = (.ok out', r2')) {p p' : Party}
    (hp : r key = some p) (hp' : r' key' = some p') (hk : p.keys.eddsaPub = p'.keys.eddsaPub) (hm : p.m = p'.m) :
    ∃ sd sd' : SigData, e.jsonSig sd = some out ∧ e.jsonSig sd' = some out' ∧ (sd.r = sd'.r → sd = sd' ∧ out = out') := by
  obtain ⟨q, A, sd, a1, a2, a3, a4, a5, a6, a7, a8⟩ := C54_released_signature_verifies hr h
  obtain ⟨q', A', sd', b1, b2, b3, b4, b5, b6, b7, b8⟩ := C54_released_signature_verifies hr' h'
  rw [hp] at a1; cases a1
  rw [hp'] at b1; cases b1
  rw [a2, b2] at hk; cases hk
  rw [← hm] at b4
  refine ⟨sd, sd', a3, b3, fun hrr => ?_⟩
  have hR : sd.signature.take 32 = sd'.signature.take 32 := by
    rw [a7, b7] at hrr
    have h1 := congrArg beNat hrr
    simp only [intBytes, beNat_natBE, Int.natAbs_natCast] at h1
    exact leNat_inj _ _ (by rw [List.length_take, List.length_take, a4.1, b4.1]) h1
  have hsig := C92_unique a4 b4 hR a5 b5
  have : sd = sd' := by
    cases sd; cases sd'
    simp only at *
    subst hsig
    rw [a6, b6, hm, a7, b7, a8, b8]
  refine ⟨this, ?_⟩
  rw [this] at a3
  exact Option.some.inj (a3.symm.trans b3)

/-- C92, deviation: the verification equation alone does not fix the second half: adding the group order gives another 64-byte string that
verifies, whenever it stays below 2^253. -/
theorem C92_malleable {sha512 : Bytes → Bytes} {pub msg sig : Bytes} (h : spec.Verifies sha512 pub msg sig)
    (hs : leNat (sig.drop 32) + Ed.ord < 2 ^ 253) :
    sig.take 32 ++ leFixed 32 (leNat (sig.drop 32) + Ed.ord) ≠ sig ∧
      spec.Verifies sha512 pub msg (sig.take 32 ++ leFixed 32 (leNat (sig.drop 32) + Ed.ord)) := by
  obtain ⟨hl, A, hA, -, e1⟩ := h
  have hlt : (sig.take 32).length = 32 := by simp [hl]
  have hval : leNat (leFixed 32 (leNat (sig.drop 32) + Ed.ord)) = leNat (sig.drop 32) + Ed.ord := by
    rw [leNat_leFixed, Nat.mod_eq_of_lt (lt_trans hs (by norm_num))]
  constructor
  · intro hc
    have h1 := congrArg (fun b => leNat (b.drop 32)) hc
    simp only [List.drop_left' hlt, hval] at h1
    have := Ed.ord_prime.pos
    omega
  · refine ⟨by simp [hl, leFixed_length], A, hA, ?_, ?_⟩
    · rw [List.drop_left' hlt, hval]; exact hs
    · rw [List.drop_left' hlt, List.take_left' hlt, hval, add_smul, Ed.ord_smul_B, add_zero]
      exact e1

theorem recover_of_points {s s' c c' a : Nat} (l1 : c < Ed.ord) (l2 : c' < Ed.ord) (hc : c ≠ c')
    (h3 : s • Ed.B - c • a • Ed.B = s' • Ed.B - c' • a • Ed.B) : spec.recover s s' c c' = a % Ed.ord := by
  have h4 : (s + c' * a) • Ed.B = (s' + c * a) • Ed.B := by
    rw [add_smul, add_smul, mul_smul, mul_smul]
    rw [sub_eq_sub_iff_add_eq_add] at h3
    exact h3
  have h5 := smul_B_inj h4
  have : Fact Ed.ord.Prime := ⟨Ed.ord_prime⟩
  have hne : ((c : ZMod Ed.ord) - c') ≠ 0 := by
    rw [sub_ne_zero, Ne, ZMod.natCast_eq_natCast_iff', Nat.mod_eq_of_lt l1, Nat.mod_eq_of_lt l2]
    exact hc
  have h6 := (ZMod.natCast_eq_natCast_iff' _ _ _).2 h5
  push_cast at h6
  unfold spec.recover
  have : ((s : ZMod Ed.ord) - s') / ((c : ZMod Ed.ord) - c') = (a : ZMod Ed.ord) := by
    rw [div_eq_iff hne]
    linear_combination h6
  simp only [this, ZMod.val_natCast]

/-- C92. Two signatures with one first half and different challenges give away the key: who holds them computes the discrete logarithm of
the public key (of the part of it in the subgroup of the base point). -/
theorem C92_same_R_reveals_key {sha512 : Bytes → Bytes} {pub msg msg' sig sig' : Bytes} (h : spec.Verifies sha512 pub msg sig)
    (h' : spec.Verifies sha512 pub msg' sig') (hR : sig.take 32 = sig'.take 32) {a : Nat} (ha : spec.Decodes pub (a • Ed.B))
    (hc : spec.challenge sha512 (sig.take 32) pub msg ≠ spec.challenge sha512 (sig.take 32) pub msg') :
    spec.recover (leNat (sig.drop 32)) (leNat (sig'.drop 32)) (spec.challenge sha512 (sig.take 32) pub msg)
      (spec.challenge sha512 (sig.take 32) pub msg') = a % Ed.ord := by
  obtain ⟨hl, A, hA, -, e1⟩ := h
  obtain ⟨hl', A', hA', -, e2⟩ := h'
  obtain rfl := decodes_unique hA ha
  obtain rfl := decodes_unique hA' ha
  rw [← hR] at e2
  have h3 := Ed.encode_injective (e1.symm.trans e2)
  have l1 := challenge_lt sha512 (sig.take 32) pub msg
  have l2 := challenge_lt sha512 (sig.take 32) pub msg'
  exact recover_of_points l1 l2 hc h3

theorem decodes_encode (g : Ed.Point) : spec.Decodes (Ed.encode g) g := by
  have hl : (Ed.encode g).length = 32 := Ed.encode_length g
  have hv : leNat (Ed.encode g) = g.y.val + (if g.x.val % 2 = 1 then 2 ^ 255 else 0) := by
    unfold Ed.encode; rw [leNat_leFixed, Ed.enc_mod]
  have l2 := ZMod.val_lt g.y
  have hP := Ed.P_lt
  have hm : leNat (Ed.encode g) % 2 ^ 255 = g.y.val := by rw [hv]; split <;> omega
  refine ⟨hl, ?_, fun _ => ?_⟩
  · rw [hm, ZMod.natCast_zmod_val]
  · have h1 := Ed.leNat_split31 _ hl
    have h2 := leNat_lt ((Ed.encode g).take 31)
    rw [List.length_take, hl, show min 31 32 = 31 from rfl] at h2
    rw [h1] at hv
    generalize ((Ed.encode g).getD 31 0).toNat = b at *
    generalize g.y.val = y at *
    norm_num at h2 hv hP ⊢
    have : (57896044618658097711785492504343953926634992332820282019728792003956564819968 : Nat) = 128 * 256 ^ 31 := by norm_num
    split at hv
    · next hx => rw [hx]; constructor <;> intro _ <;> omega
    · next hx => constructor <;> intro _ <;> omega

theorem mod_smul_B (n : Nat) : (n % Ed.ord) • Ed.B = n • Ed.B := by
  have h := Ed.ord_smul_B
  generalize Ed.B = B at *
  generalize Ed.ord = o at *
  conv_rhs => rw [← Nat.mod_add_div n o, add_smul, mul_comm, mul_smul, h, smul_zero, add_zero]

/-- C92. Whoever knows the discrete logarithm of the key can sign any message with any first half `k • B`; the second half is the one
value below the group order that C92_unique leaves. So the theorems above speak about signatures that exist, for every hash, key, message
and nonce. -/
theorem C92_every_R (sha512 : Bytes → Bytes) (a k : Nat) (msg : Bytes) :
    spec.Verifies sha512 (Ed.encode (a • Ed.B)) msg (Ed.encode (k • Ed.B) ++
      leFixed 32 ((spec.challenge sha512 (Ed.encode (k • Ed.B)) (Ed.encode (a • Ed.B)) msg * a + k) % Ed.ord)) := by
  have hlt := Nat.mod_lt (spec.challenge sha512 (Ed.encode (k • Ed.B)) (Ed.encode (a • Ed.B)) msg * a + k) Ed.ord_prime.pos
  have ho : Ed.ord < 2 ^ 253 := by decide +kernel
  have hval : leNat (leFixed 32 ((spec.challenge sha512 (Ed.encode (k • Ed.B)) (Ed.encode (a • Ed.B)) msg * a + k) % Ed.ord)) =
      (spec.challenge sha512 (Ed.encode (k • Ed.B)) (Ed.encode (a • Ed.B)) msg * a + k) % Ed.ord := by
    rw [leNat_leFixed, Nat.mod_eq_of_lt (lt_trans hlt (lt_trans ho (by norm_num)))]
  refine ⟨by simp [Ed.encode_length, leFixed_length], a • Ed.B, decodes_encode _, ?_, ?_⟩
  · rw [List.drop_left' (Ed.encode_length _), hval]; exact lt_trans hlt ho
  · rw [List.drop_left' (Ed.encode_length _), List.take_left' (Ed.encode_length _), hval]
    refine congrArg Ed.encode ?_
    rw [show (leNat (sha512 (Ed.encode (k • Ed.B) ++ Ed.encode (a • Ed.B) ++ msg)) % Ed.ord) =
      spec.challenge sha512 (Ed.encode (k • Ed.B)) (Ed.encode (a • Ed.B)) msg from rfl]
    generalize spec.challenge sha512 (Ed.encode (k • Ed.B)) (Ed.encode (a • Ed.B)) msg = c
    have : ((c * a + k) % Ed.ord) • Ed.B = (c * a + k) • Ed.B := mod_smul_B _
    rw [this]
    generalize Ed.B = B
    rw [add_smul, mul_smul]
    exact (add_sub_cancel_left (c • a • B) (k • B)).symm

/-- two signatures of two messages with nonce 3 under the key 5, and a hash that tells the messages apart: the key 5 comes out -/
example : ∃ (sha512 : Bytes → Bytes) (sig sig' : Bytes), spec.Verifies sha512 (Ed.encode (5 • Ed.B)) [1] sig ∧
    spec.Verifies sha512 (Ed.encode (5 • Ed.B)) [2] sig' ∧ sig.take 32 = sig'.take 32 ∧
    spec.recover (leNat (sig.drop 32)) (leNat (sig'.drop 32)) (spec.challenge sha512 (sig.take 32) (Ed.encode (5 • Ed.B)) [1])
      (spec.challenge sha512 (sig.take 32) (Ed.encode (5 • Ed.B)) [2]) = 5 := by
  let sha : Bytes → Bytes := fun b => b.drop 64
  have h1 := C92_every_R sha 5 3 [1]
  have h2 := C92_every_R sha 5 3 [2]
  have hR : ∀ x y : Bytes, (Ed.encode (3 • Ed.B) ++ x).take 32 = (Ed.encode (3 • Ed.B) ++ y).take 32 := by
    intro x y; rw [List.take_left' (Ed.encode_length _), List.take_left' (Ed.encode_length _)]
  refine ⟨sha, _, _, h1, h2, hR _ _, ?_⟩
  have hc : ∀ m : Bytes, spec.challenge sha (Ed.encode (3 • Ed.B)) (Ed.encode (5 • Ed.B)) m = leNat m % Ed.ord := by
    intro m
    have : (Ed.encode (3 • Ed.B) ++ Ed.encode (5 • Ed.B)).length = 64 := by
      rw [List.length_append, Ed.encode_length, Ed.encode_length]
    simp only [spec.challenge, sha]
    rw [List.drop_left' this]
  have := C92_same_R_reveals_key h1 h2 (hR _ _) (decodes_encode _) (by
    rw [List.take_left' (Ed.encode_length _), hc, hc]; decide +kernel)
  rw [this]
  decide +kernel

end Tss.Onsign
