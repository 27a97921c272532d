import Verif.Props.SecpCurve
import Verif.Props.Ckd
/-
C47 and C70 for the curve the secp256k1 variant is used with, btcec's S256 (Model/SecpS256), without any hypothesis about the curve.
-/
namespace Tss.Secp
open Tss Tss.Ckd spec

theorem x_ne_zero {x y : ZMod p} (h : y ^ 2 = x ^ 3 + 7) : x ≠ 0 := by
  rintro rfl
  have h7 : y ^ 2 = ((7 : ℕ) : ZMod p) := by rw [h]; simp
  have hy : y ≠ 0 := y_ne_zero h
  have e : (y ^ 2) ^ ((p - 1) / 2) = 1 := by
    rw [← pow_mul]
    have : 2 * ((p - 1) / 2) = p - 1 := by norm_num [p]
    rw [this]
    exact ZMod.pow_card_sub_one_eq_one hy
  rw [h7] at e
  have e' : ((7 ^ ((p - 1) / 2) % p : ℕ) : ZMod p) = ((1 : ℕ) : ZMod p) := by
    rw [ZMod.natCast_mod, Nat.cast_pow, e, Nat.cast_one]
  rw [ZMod.natCast_eq_natCast_iff'] at e'
  rw [Nat.mod_mod] at e'
  rw [← powMod_eq] at e'
  revert e'
  decide +kernel

/-- The point of `ECPoint` type with the coordinates of g. -/
def ecp (g : E.Point) : ECPoint := ⟨(affine g).1, (affine g).2⟩

theorem ecp_on {g : E.Point} (h : g ≠ 0) : s256.On (ecp g) := by
  change s256.isOnCurve (affine g).1 (affine g).2 = true
  rw [affine_coords]; exact coords_on h

theorem ecp_ne_zero {g : E.Point} (h : g ≠ 0) : (ecp g).x ≠ 0 ∧ (ecp g).y ≠ 0 := by
  rcases point_cases g with rfl | ⟨x, y, hh, rfl⟩
  · exact absurd rfl h
  · have c : ∀ z : ZMod p, z ≠ 0 → (z.val : Int) ≠ 0 := by
      intro z hz hv
      have : z.val = 0 := by omega
      exact hz ((ZMod.val_eq_zero z).1 this)
    exact ⟨c _ (x_ne_zero hh), c _ (y_ne_zero hh)⟩

theorem new_ecp (g : E.Point) : (g = 0 → ECPoint.new s256 (affine g).1 (affine g).2 = none) ∧
    (g ≠ 0 → ECPoint.new s256 (affine g).1 (affine g).2 = some (ecp g)) := by
  constructor
  · rintro rfl
    unfold ECPoint.new
    rw [if_neg]
    rw [Bool.not_eq_true]; exact off_zero
  · intro h
    unfold ECPoint.new
    rw [if_pos (show s256.isOnCurve (affine g).1 (affine g).2 = true from ecp_on h)]
    rfl

theorem sbm_ecp {k : Int} (h : k • G ≠ 0) : ECPoint.scalarBaseMult s256 k = some (ecp (k • G)) := by
  have hz : s256.scalarBaseMult (intBytes (k % s256.N)) = affine (k • G) := by
    refine (scalarBaseMult_spec _).trans ?_
    have h0 := Int.emod_nonneg k (show s256.N ≠ 0 by decide)
    rw [← natCast_zsmul, beNat_intBytes, Int.natAbs_of_nonneg h0, affine_coords]
    apply coords_mod
    change (ord : Int) ∣ k % N - k
    rw [ord_N]
    exact ⟨-(k / ord), by linarith [Int.emod_add_mul_ediv k ord]⟩
  unfold ECPoint.scalarBaseMult
  simp only
  rw [hz]
  exact (new_ecp _).2 h

theorem add_ecp (A B : E.Point) : (A + B = 0 → ECPoint.add s256 (ecp A) (ecp B) = none) ∧
    (A + B ≠ 0 → ECPoint.add s256 (ecp A) (ecp B) = some (ecp (A + B))) := by
  unfold ECPoint.add
  simp only [ecp]
  rw [C73_add]
  exact new_ecp (A + B)

theorem affine_G : affine G = (s256.Gx, s256.Gy) := by rw [affine_coords, base_coords]; rfl

theorem eq_G {B : E.Point} (h : affine B = (s256.Gx, s256.Gy)) : B = G := C73_affine_injective _ _ (h.trans affine_G.symm)

theorem eq_ecp {A : E.Point} {q : ECPoint} (h : affine A = (q.x, q.y)) : q = ecp A := by
  unfold ecp; rw [h]

/-- The body of `DeriveChildKey` once index, depth and points have been checked. -/
theorem step_body {E : Env} {c : Curve} {N : Int} {i : Nat} {hard : Bool} {pk : Key} {q d : ECPoint} {I : Bytes} (hE : E.curve = c)
    (hi : i < 2 ^ 31) (hdep : ¬pk.depth = 255) (hp : pk.pub = some q) (hd : pk.deduce = some d) (onq : c.On q) (ond : c.On d)
    (hx : 0 ≤ d.x ∧ d.x < 2 ^ 256) (hI : I = E.hmac512 pk.chainCode (Ckd.spec.ckdData hard pk.priv d i)) :
    deriveChildKey E N i hard pk =
      if (beNat (I.take 32) : Int) ≥ c.N ∨ (beNat (I.take 32) : Int) = 0 then .err .invalidDerived
      else match ECPoint.scalarBaseMult c (beNat (I.take 32) : Int) with
        | none => .panic
        | some deltaG =>
          if deltaG.x = 0 ∨ deltaG.y = 0 then .err .invalidChild
          else match ECPoint.add c q deltaG with
            | none => .err .addOffCurve
            | some child =>
              match ECPoint.add c d deltaG with
              | none => .err .addOffCurve
              | some deduce =>
                .ok ((beNat (I.take 32) : Int), {
                  priv := intBytes (((beNat (I.take 32) : Int) + (beNat pk.priv : Int)) % N), pub := some child,
                  deduce := some deduce, depth := pk.depth + 1,
                  childIndex := if hard = true then i ||| 0x80000000 else i, chainCode := I.drop 32,
                  parentFP := (E.hash160 (Ckd.serializeCompressed d.x d.y)).take 4, version := pk.version }) := by
  unfold deriveChildKey
  rw [if_neg (by unfold hardenedKeyStart; omega), if_neg (show ¬ pk.depth = maxDepth from hdep), hE, hp, hd, newPoint_on onq,
    newPoint_on ond]
  simp only
  rw [data_eq hx.1 hx.2 hi, ← hI]
  rfl

theorem ecp_pair (g : Tss.Secp.E.Point) : ((ecp g).x, (ecp g).y) = affine g := rfl

theorem N_ne : s256.N ≠ 0 := by decide

theorem key_bytes (a t N : Int) (hN : N ≠ 0) : intBytes ((t + a) % N) = natBE ((a + t) % N).toNat := by
  unfold intBytes
  rw [add_comm]
  congr 1
  have := Int.emod_nonneg (a + t) hN
  omega

theorem affine_x_bounds {D : Secp256k1.Point} {d : ECPoint} (hD : affine D = (d.x, d.y)) : 0 ≤ d.x ∧ d.x < 2 ^ 256 := by
  have h : d.x = (affine D).1 := by rw [hD]
  rw [h, affine_coords]
  rcases point_cases D with rfl | ⟨x, y, hh, rfl⟩
  · rw [coords_zero]; decide
  · rw [coords_pt]
    have h1 := ZMod.val_lt x
    have h2 : p < 2 ^ 256 := by decide
    have : x.val < 2 ^ 256 := by omega
    exact ⟨Int.natCast_nonneg _, by change (x.val : Int) < 2 ^ 256; exact_mod_cast this⟩

theorem small_ne {t : Nat} (h0 : 0 < t) (h : (t : Int) < s256.N) : (t : Int) • G ≠ 0 := by
  rw [ne_eq, C74_group_order.2.2.2.1 G G_ne_zero (t : Int)]
  intro hdvd
  have := Int.le_of_dvd (by omega) hdvd
  omega

/-- The step on any curve whose operations are those of a group, with `mk` giving the coordinates of an element. -/
theorem step_group {Gp : Type} [AddCommGroup Gp] {c : Curve} (mk : Gp → ECPoint) (B : Gp) (hN : c.N ≠ 0)
    (on : ∀ g, g ≠ 0 → c.On (mk g)) (nz : ∀ g, g ≠ 0 → (mk g).x ≠ 0 ∧ (mk g).y ≠ 0)
    (ne : ∀ t : Nat, 0 < t → (t : Int) < c.N → t • B ≠ 0)
    (sbm : ∀ t : Nat, t • B ≠ 0 → ECPoint.scalarBaseMult c (t : Int) = some (mk (t • B)))
    (add0 : ∀ A C, A + C = 0 → ECPoint.add c (mk A) (mk C) = none)
    (add1 : ∀ A C, A + C ≠ 0 → ECPoint.add c (mk A) (mk C) = some (mk (A + C)))
    {E : Env} (hE : E.curve = c) (i : Nat) (hard : Bool) (pk : Key) (A D : Gp) (hp : pk.pub = some (mk A))
    (hd : pk.deduce = some (mk D)) (hA0 : A ≠ 0) (hD0 : D ≠ 0) (hx : 0 ≤ (mk D).x ∧ (mk D).x < 2 ^ 256) (I : Bytes)
    (hI : I = E.hmac512 pk.chainCode (Ckd.spec.ckdData hard pk.priv (mk D) i)) :
    ((∃ il k, deriveChildKey E c.N i hard pk = .ok (il, k)) ↔
      i < 2 ^ 31 ∧ pk.depth ≠ 255 ∧ 0 < beNat (I.take 32) ∧ (beNat (I.take 32) : Int) < c.N ∧
        A + beNat (I.take 32) • B ≠ 0 ∧ D + beNat (I.take 32) • B ≠ 0) ∧
    (∀ il k, deriveChildKey E c.N i hard pk = .ok (il, k) →
      il = beNat (I.take 32) ∧ k.pub = some (mk (A + beNat (I.take 32) • B)) ∧ k.deduce = some (mk (D + beNat (I.take 32) • B)) ∧
      k.priv = natBE (((beNat pk.priv : Int) + beNat (I.take 32)) % c.N).toNat ∧ k.chainCode = I.drop 32) ∧
    deriveChildKey E c.N i hard pk ≠ .panic := by
  by_cases hi : i < 2 ^ 31
  swap
  · have e : deriveChildKey E c.N i hard pk = .err .indexHardened := by
      unfold deriveChildKey; rw [if_pos (by unfold hardenedKeyStart; omega)]
    rw [e]
    exact ⟨⟨fun ⟨_, _, h⟩ => (by cases h), fun h => absurd h.1 hi⟩, fun _ _ h => (by cases h), by simp⟩
  by_cases hdep : pk.depth = 255
  · have e : deriveChildKey E c.N i hard pk = .err .maxDepth := by
      unfold deriveChildKey
      rw [if_neg (by unfold hardenedKeyStart; omega), if_pos (show pk.depth = maxDepth from hdep)]
    rw [e]
    exact ⟨⟨fun ⟨_, _, h⟩ => (by cases h), fun h => absurd hdep h.2.1⟩, fun _ _ h => (by cases h), by simp⟩
  have onq := on A hA0
  have ond := on D hD0
  have hunf := step_body (E := E) (N := c.N) hE hi hdep hp hd onq ond hx hI
  rw [hunf]
  generalize beNat (I.take 32) = t
  by_cases ht : (t : Int) ≥ c.N ∨ (t : Int) = 0
  · rw [if_pos ht]
    refine ⟨⟨fun ⟨_, _, h⟩ => (by cases h), fun h => ?_⟩, fun _ _ h => (by cases h), by simp⟩
    rcases ht with h' | h' <;> omega
  rw [if_neg ht]
  push Not at ht
  have htG := ne t (by omega) ht.1
  rw [sbm t htG]
  obtain ⟨n1, n2⟩ := nz _ htG
  simp only
  rw [if_neg (by push Not; exact ⟨n1, n2⟩)]
  have hpos : 0 < t := by omega
  by_cases hAt : A + t • B = 0
  · rw [add0 _ _ hAt]
    exact ⟨⟨fun ⟨_, _, h⟩ => (by cases h), fun h => absurd hAt h.2.2.2.2.1⟩, fun _ _ h => (by cases h), by simp⟩
  rw [add1 _ _ hAt]
  simp only
  by_cases hDt : D + t • B = 0
  · rw [add0 _ _ hDt]
    exact ⟨⟨fun ⟨_, _, h⟩ => (by cases h), fun h => absurd hDt h.2.2.2.2.2⟩, fun _ _ h => (by cases h), by simp⟩
  rw [add1 _ _ hDt]
  simp only
  refine ⟨⟨fun _ => ⟨hi, hdep, hpos, by omega, hAt, hDt⟩, fun _ => ⟨_, _, rfl⟩⟩, ?_, by simp⟩
  intro il k h
  cases h
  exact ⟨rfl, rfl, rfl, key_bytes _ _ _ hN, rfl⟩

theorem small_ne' {t : Nat} (h0 : 0 < t) (h : (t : Int) < s256.N) : t • G ≠ 0 := by
  rw [← natCast_zsmul]; exact small_ne h0 h

theorem sbm_ecp' {t : Nat} (h : t • G ≠ 0) : ECPoint.scalarBaseMult s256 (t : Int) = some (ecp (t • G)) := by
  have := sbm_ecp (k := (t : Int)) (by rw [natCast_zsmul]; exact h)
  rw [natCast_zsmul] at this
  exact this

/-- C70 on S256, the whole step: with I = HMAC-SHA512(chain code, message) and t the first 32 octets of I, the child exists exactly
when the index is below 2³¹, the depth below 255, 0 < t < N and neither t·G + key is infinity (BIP32's conditions, the last for both
points); then its points, private key and chain code are BIP32's. It is never a crash. -/
theorem C70_s256_step {E : Env} (hE : E.curve = s256) (i : Nat) (hard : Bool) (pk : Key) (q d : ECPoint) (hp : pk.pub = some q)
    (hd : pk.deduce = some d) (A D B : Secp256k1.Point) (hA : affine A = (q.x, q.y)) (hD : affine D = (d.x, d.y))
    (hA0 : A ≠ 0) (hD0 : D ≠ 0) (hB : affine B = (s256.Gx, s256.Gy)) (I : Bytes)
    (hI : I = E.hmac512 pk.chainCode (Ckd.spec.ckdData hard pk.priv d i)) :
    ((∃ il k, deriveChildKey E s256.N i hard pk = .ok (il, k)) ↔
      i < 2 ^ 31 ∧ pk.depth ≠ 255 ∧ 0 < beNat (I.take 32) ∧ (beNat (I.take 32) : Int) < s256.N ∧
        A + beNat (I.take 32) • B ≠ 0 ∧ D + beNat (I.take 32) • B ≠ 0) ∧
    (∀ il k, deriveChildKey E s256.N i hard pk = .ok (il, k) →
      il = beNat (I.take 32) ∧
      (∃ q', k.pub = some q' ∧ (q'.x, q'.y) = affine (A + beNat (I.take 32) • B)) ∧
      (∃ d', k.deduce = some d' ∧ (d'.x, d'.y) = affine (D + beNat (I.take 32) • B)) ∧
      k.priv = natBE (((beNat pk.priv : Int) + beNat (I.take 32)) % s256.N).toNat ∧ k.chainCode = I.drop 32) ∧
    deriveChildKey E s256.N i hard pk ≠ .panic := by
  rw [eq_G hB]
  have qe := eq_ecp hA
  have de := eq_ecp hD
  subst qe
  subst de
  obtain ⟨r1, r2, r3⟩ := step_group (c := s256) ecp G N_ne (fun _ h => ecp_on h) (fun _ h => ecp_ne_zero h)
    (fun t h0 h => small_ne' h0 h) (fun t h => sbm_ecp' h) (fun A C => (add_ecp A C).1) (fun A C => (add_ecp A C).2) hE i hard pk A D
    hp hd hA0 hD0 (affine_x_bounds hD) I hI
  exact ⟨r1, fun il k h => ⟨(r2 il k h).1, ⟨_, (r2 il k h).2.1, ecp_pair _⟩, ⟨_, (r2 il k h).2.2.1, ecp_pair _⟩, (r2 il k h).2.2.2⟩, r3⟩

/-- A stand-in environment on S256. -/
def s256Env : Env := ⟨s256, fun b => beFixed 20 (beNat b), fun _ _ => beFixed 64 (5 * 2 ^ 256 + 7)⟩

/-- The hypotheses of `C70_s256_step` hold of the base point as a key, and a step from it succeeds, hardened or not. -/
example (hard : Bool) : ∃ il k, deriveChildKey s256Env s256.N 44 hard (newExtendKey s256Env [1] (ecp G) (ecp G) 0 0 [7]) = .ok (il, k) := by
  have hb : beNat ((beFixed 64 (5 * 2 ^ 256 + 7)).take 32) = 5 := by decide +kernel
  refine (C70_s256_step (E := s256Env) rfl 44 hard _ (ecp G) (ecp G) rfl rfl G G G rfl rfl G_ne_zero G_ne_zero affine_G
    (beFixed 64 (5 * 2 ^ 256 + 7)) rfl).1.2 ?_
  rw [hb]
  have h6 : G + 5 • G ≠ 0 := by
    have := small_ne' (t := 6) (by norm_num) (by decide)
    rwa [show (6 : ℕ) = 1 + 5 from rfl, add_nsmul, one_nsmul] at this
  exact ⟨by norm_num, by decide, by norm_num, by decide, h6, h6⟩

/-- C47 on S256: if pub is priv·G then, along every path without hardened components, private and public derivation succeed together
(with the same error otherwise) and the child public key is the child private key times G: exactly what `ScalarBaseMult` returns. -/
theorem C47_s256_priv_pub_agree {E : Env} (hE : E.curve = s256) (priv : Bytes) (pub deduce : ECPoint) (A B : Secp256k1.Point)
    (hA : affine A = (pub.x, pub.y)) (hB : affine B = (s256.Gx, s256.Gy)) (hpub : A = beNat priv • B) (code path : Bytes)
    (hnh : Ckd.spec.NonHardened path) :
    (∀ k kb, derivePrivateKeyForPath E s256.N (newExtendKey E priv pub deduce 0 0 code) path = .ok (k, kb) →
      ∃ Q, derivePublicKeyForPath E (newExtendKey E [] pub deduce 0 0 code) path = .ok Q ∧
        ECPoint.scalarBaseMult s256 (beNat k) = some Q ∧ (Q.x, Q.y) = affine (beNat k • B) ∧
        k.length = 32 ∧ (beNat k : Int) < s256.N ∧ kb = Ckd.serializeCompressed Q.x Q.y) ∧
    (∀ Q, derivePublicKeyForPath E (newExtendKey E [] pub deduce 0 0 code) path = .ok Q →
      ∃ k kb, derivePrivateKeyForPath E s256.N (newExtendKey E priv pub deduce 0 0 code) path = .ok (k, kb)) ∧
    (∀ e, derivePrivateKeyForPath E s256.N (newExtendKey E priv pub deduce 0 0 code) path = .err e ↔
      derivePublicKeyForPath E (newExtendKey E [] pub deduce 0 0 code) path = .err e) := by
  obtain ⟨curve, h160, hmac⟩ := E
  subst hE
  have hBG := eq_G hB
  subst hBG
  have hv : s256_lawful.val pub = (beNat priv : Int) • s256_lawful.base := by
    change toG pub.x pub.y = (beNat priv : Int) • G
    rw [natCast_zsmul, ← hpub, ← toG_coords A, ← affine_coords, hA]
  obtain ⟨g1, g2, g3⟩ := C47_secp_priv_pub_agree (E := ⟨s256, h160, hmac⟩) s256_lawful rfl (show s256.N ≤ 2 ^ 256 by decide) priv pub deduce hv code path hnh
  refine ⟨?_, g2, g3⟩
  intro k kb h
  obtain ⟨Q, q1, q2, q3, q4, q5, q6, q7⟩ := g1 k kb h
  refine ⟨Q, q1, q4, ?_, q5, q6, q7⟩
  have hne : ((beNat k : Int)) • G ≠ 0 := by
    intro hz
    have := (C74_scalarBaseMult_nil (beNat k : Int)).1.2 ((C74_group_order.2.2.2.1 G G_ne_zero _).1 hz)
    rw [show ECPoint.scalarBaseMult s256 (beNat k) = some Q from q4] at this
    cases this
  have h4 : ECPoint.scalarBaseMult s256 (beNat k) = some Q := q4
  rw [sbm_ecp hne] at h4
  cases h4
  rw [natCast_zsmul]
  rfl

/-- Its hypotheses hold of the key 1 and the path 44/7. -/
example : affine G = ((ecp G).x, (ecp G).y) ∧ affine G = (s256.Gx, s256.Gy) ∧ G = beNat [1] • G ∧ Ckd.spec.NonHardened [52, 52, 47, 55] :=
  ⟨rfl, affine_G, (one_nsmul G).symm, by decide +kernel⟩

end Tss.Secp
