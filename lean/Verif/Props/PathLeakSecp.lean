import Verif.Props.PathLeak
import Verif.Props.CkdSecp
/-
C120 for secp256k1: one key derived without hardened components gives the key it was derived from and all other such keys.
-/
namespace Tss.Secp
open Tss Tss.Ckd Text spec

/-! ### Specification -/

/-- What the components of a path add to a private key on secp256k1, from public data only: every component `i` adds the number t in the
first half of HMAC(chain code, serP(D) ‖ ser32(i)); the public key `D` moves by t·B and the second half is the next chain code. -/
noncomputable def spec.pathTweak (hmac : Bytes → Bytes → Bytes) (B : Secp256k1.Point) : Secp256k1.Point → Bytes → List Nat → Int
  | _, _, [] => 0
  | D, code, i :: t =>
    let I := hmac code (Ckd.spec.serP ⟨(affine D).1, (affine D).2⟩ ++ Ckd.spec.ser32 i)
    (beNat (I.take 32) : Int) + spec.pathTweak hmac B (D + beNat (I.take 32) • B) (I.drop 32) t

/-! ### Proof -/

theorem loop_tweak {E : Env} (hE : E.curve = s256) (B : Secp256k1.Point) (hB : affine B = (s256.Gx, s256.Gy)) :
    ∀ (parts : List Bytes) (pk k : Key) (q d : ECPoint) (A D : Secp256k1.Point), pk.pub = some q → pk.deduce = some d →
    affine A = (q.x, q.y) → affine D = (d.x, d.y) → A ≠ 0 → D ≠ 0 → (∀ part ∈ parts, part.getLast? ≠ some 39) →
    derivePrivLoop E s256.N pk parts = .ok k →
    ∃ is, List.Forall₂ (fun part i => Ckd.spec.PrivComponent part i false) parts is ∧
      (beNat k.priv : Int) ≡ beNat pk.priv + spec.pathTweak E.hmac512 B D pk.chainCode is [ZMOD s256.N]
  | [], pk, k, q, d, A, D, _, _, _, _, _, _, _, h => by
    unfold derivePrivLoop at h
    cases h
    exact ⟨[], .nil, by unfold spec.pathTweak; simp⟩
  | part :: t, pk, k, q, d, A, D, hp, hd, hA, hD, hA0, hD0, hn, h => by
    unfold derivePrivLoop at h
    cases hq : parsePart part with
    | panic => rw [hq] at h; cases h
    | err e => rw [hq] at h; cases h
    | ok v =>
      obtain ⟨i, hard⟩ := v
      rw [hq] at h
      simp only at h
      have hc := (C48_component _ _ _).mp hq
      have hf : hard = false := by
        obtain ⟨body, z, ⟨h, -⟩ | ⟨-, h⟩, -⟩ := hc
        · exact h
        · exact absurd (by rw [h]; simp) (hn part (by simp))
      subst hf
      cases hs : deriveChildKey E s256.N i false pk with
      | panic => rw [hs] at h; cases h
      | err e => rw [hs] at h; cases h
      | ok v =>
        obtain ⟨il, c⟩ := v
        rw [hs] at h
        simp only at h
        obtain ⟨I, hI⟩ : ∃ I, I = E.hmac512 pk.chainCode (Ckd.spec.ckdData false pk.priv d i) := ⟨_, rfl⟩
        obtain ⟨s1, s2, -⟩ := C70_s256_step hE i false pk q d hp hd A D B hA hD hA0 hD0 hB I hI
        obtain ⟨-, -, -, -, nA, nD⟩ := s1.mp ⟨il, c, hs⟩
        obtain ⟨e1, ⟨q', q1, q2⟩, ⟨d', d1, d2⟩, e3, e4⟩ := s2 il c hs
        obtain ⟨is, f, g⟩ := loop_tweak hE B hB t c k q' d' _ _ q1 d1 q2.symm d2.symm nA nD (fun p hm => hn p (by simp [hm])) h
        refine ⟨i :: is, .cons hc f, g.trans ?_⟩
        have hd' : d = ⟨(affine D).1, (affine D).2⟩ := by rw [hD]
        have hI' : I = E.hmac512 pk.chainCode (Ckd.spec.serP ⟨(affine D).1, (affine D).2⟩ ++ Ckd.spec.ser32 i) := by
          rw [hI, ← hd']; rfl
        rw [spec.pathTweak]
        rw [← hI', e4]
        have hpos : (0 : Int) < s256.N := by decide
        have hk : (beNat c.priv : Int) = ((beNat pk.priv : Int) + beNat (I.take 32)) % s256.N := by
          rw [e3, beNat_natBE, Int.toNat_of_nonneg (Int.emod_nonneg _ hpos.ne')]
        have e5 : (beNat c.priv : Int) ≡ (beNat pk.priv : Int) + beNat (I.take 32) [ZMOD s256.N] := by
          rw [hk]; exact Int.mod_modEq _ _
        have := e5.add_right (spec.pathTweak E.hmac512 B (D + beNat (I.take 32) • B) (I.drop 32) is)
        rw [add_assoc] at this
        exact this

/-- C120 on secp256k1. The key `DerivePrivateKeyForPath` returns for a path without hardened components is the root key plus a number that is
computed from the public key, the chain code and the path. -/
theorem C120_secp_child {E : Env} (hE : E.curve = s256) {priv code path k kb : Bytes} {pub deduce : ECPoint} {A D B : Secp256k1.Point}
    (hA : affine A = (pub.x, pub.y)) (hD : affine D = (deduce.x, deduce.y)) (hA0 : A ≠ 0) (hD0 : D ≠ 0)
    (hB : affine B = (s256.Gx, s256.Gy)) (hn : Ckd.spec.NonHardened path)
    (h : derivePrivateKeyForPath E s256.N (newExtendKey E priv pub deduce 0 0 code) path = .ok (k, kb)) :
    ∃ is, Ckd.spec.PathIs path is ∧ (beNat k : Int) ≡ beNat priv + spec.pathTweak E.hmac512 B D code is [ZMOD s256.N] := by
  unfold derivePrivateKeyForPath at h
  rw [show pathParts (newExtendKey E priv pub deduce 0 0 code).depth path = some (split 47 path) from rfl] at h
  simp only at h
  cases hl : derivePrivLoop E s256.N (newExtendKey E priv pub deduce 0 0 code) (split 47 path) with
  | panic => rw [hl] at h; cases h
  | err e => rw [hl] at h; cases h
  | ok ext =>
    rw [hl] at h
    simp only at h
    obtain ⟨is, f, g⟩ := loop_tweak hE B hB (split 47 path) (newExtendKey E priv pub deduce 0 0 code) ext pub deduce A D rfl rfl hA hD
      hA0 hD0 hn hl
    refine ⟨is, f, ?_⟩
    split at h
    · cases h
    · cases he : ext.pub with
      | none => rw [he] at h; cases h
      | some p =>
        rw [he] at h
        simp only [Res.ok.injEq, Prod.mk.injEq] at h
        have hk : beNat k = beNat ext.priv := by
          rw [← h.1]
          unfold padKey
          split
          · rw [beNat_zeros_append]
          · rfl
        rw [hk]
        exact g

/-- C120 on secp256k1. Whoever knows one such key, besides the public key and the chain code, knows the root key modulo the order and the keys
of all other such paths. -/
theorem C120_secp_one_key_gives_all {E : Env} (hE : E.curve = s256) {priv code path path' k kb k' kb' : Bytes} {pub deduce : ECPoint}
    {A D B : Secp256k1.Point} (hA : affine A = (pub.x, pub.y)) (hD : affine D = (deduce.x, deduce.y)) (hA0 : A ≠ 0) (hD0 : D ≠ 0)
    (hB : affine B = (s256.Gx, s256.Gy)) {is is' : List Nat} (hi : Ckd.spec.PathIs path is) (hi' : Ckd.spec.PathIs path' is')
    (hn : Ckd.spec.NonHardened path) (hn' : Ckd.spec.NonHardened path')
    (h : derivePrivateKeyForPath E s256.N (newExtendKey E priv pub deduce 0 0 code) path = .ok (k, kb))
    (h' : derivePrivateKeyForPath E s256.N (newExtendKey E priv pub deduce 0 0 code) path' = .ok (k', kb')) :
    (beNat priv : Int) ≡ beNat k - spec.pathTweak E.hmac512 B D code is [ZMOD s256.N] ∧
      (beNat k' : Int) ≡ beNat k - spec.pathTweak E.hmac512 B D code is + spec.pathTweak E.hmac512 B D code is' [ZMOD s256.N] := by
  obtain ⟨js, p1, p2⟩ := C120_secp_child hE hA hD hA0 hD0 hB hn h
  obtain ⟨js', p1', p2'⟩ := C120_secp_child hE hA hD hA0 hD0 hB hn' h'
  cases C120_path_unique hi p1
  cases C120_path_unique hi' p1'
  have a := (p2.sub_right (spec.pathTweak E.hmac512 B D code is)).symm
  rw [add_sub_cancel_right] at a
  exact ⟨a, p2'.trans (a.add_right _)⟩

/-- The hypotheses hold of the key 1: a derivation along the path "44" succeeds and adds the number of the stand-in HMAC, 5. -/
example : ∃ k kb, derivePrivateKeyForPath s256Env s256.N (newExtendKey s256Env [1] (ecp G) (ecp G) 0 0 [7]) [52, 52] = .ok (k, kb) ∧
    (beNat k : Int) ≡ 1 + 5 [ZMOD s256.N] := by
  have hb : beNat ((beFixed 64 (5 * 2 ^ 256 + 7)).take 32) = 5 := by decide +kernel
  have hs : ∃ il k, deriveChildKey s256Env s256.N 44 false (newExtendKey s256Env [1] (ecp G) (ecp G) 0 0 [7]) = .ok (il, k) := by
    refine (C70_s256_step (E := s256Env) rfl 44 false _ (ecp G) (ecp G) rfl rfl G G G rfl rfl G_ne_zero G_ne_zero affine_G
      (beFixed 64 (5 * 2 ^ 256 + 7)) rfl).1.2 ?_
    rw [hb]
    have h6 : G + 5 • G ≠ 0 := by
      have := small_ne' (t := 6) (by norm_num) (by decide)
      rwa [show (6 : ℕ) = 1 + 5 from rfl, add_nsmul, one_nsmul] at this
    exact ⟨by norm_num, by decide, by norm_num, by decide, h6, h6⟩
  obtain ⟨il, c, hs⟩ := hs
  have hnh : Ckd.spec.NonHardened [52, 52] := by decide +kernel
  obtain ⟨-, s2, -⟩ := C70_s256_step (E := s256Env) rfl 44 false (newExtendKey s256Env [1] (ecp G) (ecp G) 0 0 [7]) (ecp G) (ecp G) rfl rfl
    G G G rfl rfl G_ne_zero G_ne_zero affine_G (beFixed 64 (5 * 2 ^ 256 + 7)) rfl
  obtain ⟨-, ⟨q', q1, q2⟩, -, e3, -⟩ := s2 il c hs
  have hpr : c.priv = [6] := by rw [e3, hb]; decide +kernel
  have hex : derivePrivateKeyForPath s256Env s256.N (newExtendKey s256Env [1] (ecp G) (ecp G) 0 0 [7]) [52, 52] =
      .ok (padKey [6], serializeCompressed q'.x q'.y) := by
    unfold derivePrivateKeyForPath
    rw [show pathParts (newExtendKey s256Env [1] (ecp G) (ecp G) 0 0 [7]).depth [52, 52] = some [[52, 52]] from by decide +kernel]
    simp only
    have hl : derivePrivLoop s256Env s256.N (newExtendKey s256Env [1] (ecp G) (ecp G) 0 0 [7]) [[52, 52]] = .ok c := by
      rw [derivePrivLoop, show parsePart [52, 52] = .ok (44, false) from by decide +kernel]
      simp only
      rw [hs]
      rfl
    rw [hl]
    simp only
    rw [hpr, if_neg (by decide +kernel), q1]
  refine ⟨_, _, hex, ?_⟩
  obtain ⟨is, i1, i2⟩ := C120_secp_child (E := s256Env) rfl (B := G) (A := G) (D := G) rfl rfl G_ne_zero G_ne_zero affine_G hnh hex
  have : is = [44] := C120_path_unique i1 (by
    unfold Ckd.spec.PathIs
    rw [show split 47 [52, 52] = [[52, 52]] from by decide +kernel]
    exact .cons ((C48_component _ _ _).mp (by decide +kernel)) .nil)
  subst this
  refine i2.trans ?_
  have h1 : beNat [1] = 1 := by decide +kernel
  rw [spec.pathTweak, spec.pathTweak, h1]
  rw [show s256Env.hmac512 [7] (Ckd.spec.serP ⟨(affine G).1, (affine G).2⟩ ++ Ckd.spec.ser32 44) = beFixed 64 (5 * 2 ^ 256 + 7) from rfl, hb]
  exact Int.ModEq.refl _

end Tss.Secp
