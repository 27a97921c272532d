import Verif.Lemmas.Ckd
import Verif.Lemmas.Ed25519Enc
import Mathlib.Algebra.BigOperators.Group.Finset.Basic
/-
Properties C47 (private and public child derivation agree) and C48 (derivation path parsing).
-/
namespace Tss.Ckd
open Tss Text

/-! ### C47, Ed25519 -/

/-- No component of the path ends in an apostrophe. -/
def spec.NonHardened (path : Bytes) : Prop := ∀ part ∈ split 47 path, part.getLast? ≠ some 39

instance (path : Bytes) : Decidable (spec.NonHardened path) :=
  inferInstanceAs (Decidable (∀ part ∈ split 47 path, part.getLast? ≠ some 39))

/-- General form, any curve whose operations compute in an abelian group: private derivation along any path
(hardened components included) adds one tweak `t` to the private key and `t`·G to the public key; so it
preserves "public = private · G".  With no hardened component public derivation of the same path gives the
very same public key, and the two succeed or fail together. -/
theorem C47_path_general {E : Env} {G : Type} [AddCommGroup G] (L : PLawful E.curve G) (hN : E.curve.N ≤ 2 ^ 256)
    {pk : KeyD} (hd0 : pk.depth = 0) (hp : E.curve.On pk.pub) (hd : E.curve.On pk.deduce) (path : Bytes) :
    (∀ k kb, derivePrivateKeyForPathD E pk path = .ok (k, kb) →
      ∃ (t : Int) (Q : ECPoint), k.length = 32 ∧ (beNat k : Int) = ((beNat pk.priv : Int) + t) % E.curve.N ∧
        E.curve.On Q ∧ L.val Q = L.val pk.pub + t • L.base ∧ (Q.x, Q.y) = L.coords (L.val Q) ∧
        kb = Ed.ecPointToEncodedBytes Q.x Q.y ∧
        (spec.NonHardened path → derivePublicKeyForPathD E pk.public path = .ok Q)) ∧
    (spec.NonHardened path →
      (∀ Q, derivePublicKeyForPathD E pk.public path = .ok Q →
        ∃ k kb, derivePrivateKeyForPathD E pk path = .ok (k, kb)) ∧
      (∀ e, derivePrivateKeyForPathD E pk path = .err e ↔ derivePublicKeyForPathD E pk.public path = .err e)) := by
  have parts0 : pathParts 0 path = some (split 47 path) := by simp [pathParts]
  have hne := split_ne_nil 47 path
  have hpubdepth : pk.public.depth = pk.depth := rfl
  have key : ∀ ext, derivePrivLoopD E pk (split 47 path) = .ok ext →
      ∃ t : Int, E.curve.On ext.pub ∧ L.val ext.pub = L.val pk.pub + t • L.base ∧
        (ext.pub.x, ext.pub.y) = L.coords (L.val ext.pub) ∧ (padKey ext.priv).length = 32 ∧
        (beNat (padKey ext.priv) : Int) = ((beNat pk.priv : Int) + t) % E.curve.N := by
    intro ext hext
    obtain ⟨t, r1, r2, r3, r4, r5, r6, r7⟩ := derivePrivLoopD_ok L _ _ _ hp hd hext
    obtain ⟨c1, c2, c3⟩ := r7 hne
    obtain ⟨l1, l2⟩ := padKey_intBytes (z := (beNat ext.priv : Int)) (by omega) (by omega)
    rw [← c3] at l1 l2
    refine ⟨t, r1, r3, c1, l1, ?_⟩
    rw [l2, ← r5, Int.emod_eq_of_lt (by omega) c2]
  constructor
  · intro k kb hk
    unfold derivePrivateKeyForPathD at hk
    rw [hd0, parts0] at hk
    simp only at hk
    cases hext : derivePrivLoopD E pk (split 47 path) with
    | panic => rw [hext] at hk; cases hk
    | err e => rw [hext] at hk; cases hk
    | ok ext =>
      obtain ⟨t, o, v, c, l, b⟩ := key ext hext
      rw [hext] at hk
      simp only [l, ne_eq, not_true_eq_false, if_false, Res.ok.injEq, Prod.mk.injEq] at hk
      obtain ⟨rfl, rfl⟩ := hk
      refine ⟨t, ext.pub, l, b, o, v, c, rfl, ?_⟩
      intro hnh
      unfold derivePublicKeyForPathD
      rw [hpubdepth, hd0, parts0]
      simp only
      rw [derivePubLoopD_public E _ pk hnh, hext]
      have : ECPoint.new E.curve ext.pub.x ext.pub.y = some ext.pub := newPoint_on o
      simp only [mapRes]
      change (match ECPoint.new E.curve ext.pub.x ext.pub.y with | none => _ | some q => _) = _
      rw [this]
  · intro hnh
    unfold derivePublicKeyForPathD derivePrivateKeyForPathD
    rw [hpubdepth, hd0, parts0]
    simp only
    rw [derivePubLoopD_public E _ pk hnh]
    cases hext : derivePrivLoopD E pk (split 47 path) with
    | panic => simp [mapRes]
    | err e => simp [mapRes]
    | ok ext =>
      obtain ⟨t, o, v, c, l, b⟩ := key ext hext
      have this : ECPoint.new E.curve ext.pub.x ext.pub.y = some ext.pub := newPoint_on o
      have e' : ECPoint.new E.curve (KeyD.public ext).pub.x (KeyD.public ext).pub.y = some ext.pub := this
      simp only [mapRes, e', l]
      simp

/-- C47 for Ed25519: for every private key, chain code and non-hardened path, if `pub` is the private key
times B then the child public key derived from `pub` is the child private key times B (as the very point
`ScalarBaseMult` returns), both derivations succeed or neither does, and the public key bytes returned with
the private key are the RFC 8032 encoding of that point. -/
theorem C47_eddsa_priv_pub_agree {E : Env} (hE : E.curve = Ed.curve) {priv : Int} (h0 : 0 ≤ priv) (h1 : priv < 2 ^ 256)
    {pub deduce : ECPoint} (hp : Ed.curve.On pub) (hd : Ed.curve.On deduce)
    (hpub : Ed.toPt pub.x pub.y = priv • Ed.B) (code path : Bytes) (hnh : spec.NonHardened path) :
    (∀ k kb, deriveEddsaChildPrivKey E priv pub deduce code path = .ok (k, kb) →
      ∃ Q, deriveEddsaChildPubKey E pub deduce code path = .ok Q ∧
        ECPoint.scalarBaseMult Ed.curve (beNat k) = some Q ∧ Ed.toPt Q.x Q.y = (beNat k : Int) • Ed.B ∧
        k.length = 32 ∧ (beNat k : Int) < Ed.curve.N ∧ kb = Ed.ecPointToEncodedBytes Q.x Q.y) ∧
    (∀ Q, deriveEddsaChildPubKey E pub deduce code path = .ok Q →
      ∃ k kb, deriveEddsaChildPrivKey E priv pub deduce code path = .ok (k, kb)) := by
  obtain ⟨curve, h160, hmac⟩ := E
  subst hE
  have hN : Ed.curve.N ≤ 2 ^ 256 := by decide +kernel
  have fb : fillBytes 32 priv = some (beFixed 32 priv.natAbs) := by
    unfold fillBytes; rw [if_pos (by norm_num; omega)]
  obtain ⟨g1, g2⟩ := C47_path_general (E := ⟨Ed.curve, h160, hmac⟩) Ed.lawful.toPLawful hN
    (pk := newExtendKeyD ⟨Ed.curve, h160, hmac⟩ (beFixed 32 priv.natAbs) pub deduce 0 0 code) rfl hp hd path
  have hb : (beNat (beFixed 32 priv.natAbs) : Int) = priv := by
    rw [beNat_beFixed, Nat.mod_eq_of_lt (by norm_num; omega)]; omega
  unfold deriveEddsaChildPrivKey deriveEddsaChildPubKey
  rw [fb]
  simp only
  have e : newExtendKeyD ⟨Ed.curve, h160, hmac⟩ [] pub deduce 0 0 code =
    (newExtendKeyD ⟨Ed.curve, h160, hmac⟩ (beFixed 32 priv.natAbs) pub deduce 0 0 code).public := rfl
  rw [e]
  constructor
  · intro k kb hk
    obtain ⟨t, Q, l, b, o, v, c, hkb, hpubd⟩ := g1 k kb hk
    have b' : (beNat k : Int) = (priv + t) % Ed.curve.N := by
      rw [b]; change ((beNat (beFixed 32 priv.natAbs) : Int) + t) % _ = _; rw [hb]
    have v' : Ed.toPt Q.x Q.y = (beNat k : Int) • Ed.B := by
      have e1 : Ed.toPt Q.x Q.y = Ed.toPt pub.x pub.y + t • Ed.B := v
      rw [e1, hpub, b', ← add_smul]
      exact (zsmul_emod (Ed.lawful.toPLawful) (priv + t)).symm
    refine ⟨Q, ?_, ?_, v', l, ?_, hkb⟩
    · rw [hpubd hnh]
    · rw [Ed.lawful.scalarBaseMult_pt]
      have e1 : Ed.lawful.pt ((beNat k : Int) • Ed.lawful.base) = Q := by
        change (⟨(Ed.coords ((beNat k : Int) • Ed.B)).1, (Ed.coords ((beNat k : Int) • Ed.B)).2⟩ : ECPoint) = Q
        rw [← v']
        have c' : (Q.x, Q.y) = Ed.coords (Ed.toPt Q.x Q.y) := c
        rw [← c']
      rw [e1]
    · rw [b']; exact Int.emod_lt_of_pos _ (by decide +kernel)
  · intro Q hQ
    apply (g2 hnh).1 Q
    cases h : derivePublicKeyForPathD ⟨Ed.curve, h160, hmac⟩
      (newExtendKeyD ⟨Ed.curve, h160, hmac⟩ (beFixed 32 priv.natAbs) pub deduce 0 0 code).public path with
    | ok q => rw [h] at hQ; simpa using hQ
    | err e => rw [h] at hQ; cases hQ
    | panic => rw [h] at hQ; cases hQ

/-- C47: the derived shares still sum to the derived group key: for any number of parties, each with its own
chain code, the child public keys computed by anyone sum to (sum of the child private keys)·B. -/
theorem C47_eddsa_shares_sum {E : Env} (hE : E.curve = Ed.curve) {n : Nat} (priv : Fin n → Int)
    (h0 : ∀ i, 0 ≤ priv i ∧ priv i < 2 ^ 256) (pub : Fin n → ECPoint) (deduce : ECPoint)
    (hp : ∀ i, Ed.curve.On (pub i)) (hd : Ed.curve.On deduce)
    (hpub : ∀ i, Ed.toPt (pub i).x (pub i).y = priv i • Ed.B) (code : Fin n → Bytes) (path : Bytes)
    (hnh : spec.NonHardened path) (k kb : Fin n → Bytes)
    (hk : ∀ i, deriveEddsaChildPrivKey E (priv i) (pub i) deduce (code i) path = .ok (k i, kb i)) :
    ∃ Q : Fin n → ECPoint, (∀ i, deriveEddsaChildPubKey E (pub i) deduce (code i) path = .ok (Q i)) ∧
      ∑ i, Ed.toPt (Q i).x (Q i).y = (∑ i, (beNat (k i) : Int)) • Ed.B := by
  choose Q q1 q2 q3 q4 q5 q6 using fun i =>
    (C47_eddsa_priv_pub_agree hE (h0 i).1 (h0 i).2 (hp i) hd (hpub i) (code i) path hnh).1 (k i) (kb i) (hk i)
  refine ⟨Q, q1, ?_⟩
  rw [Finset.sum_smul]
  exact Finset.sum_congr rfl fun i _ => q3 i

/-! ### C47, secp256k1 -/

/-- C47 for the secp256k1 variant (any curve computing in an abelian group, with `sN` its order): same
statement. -/
theorem C47_secp_priv_pub_agree {E : Env} {sN : Int} {G : Type} [AddCommGroup G] (L : PLawful E.curve G)
    (hsN : sN = E.curve.N) (hN : E.curve.N ≤ 2 ^ 256) (priv : Bytes) (pub deduce : ECPoint)
    (hpub : L.val pub = (beNat priv : Int) • L.base) (code path : Bytes) (hnh : spec.NonHardened path) :
    (∀ k kb, derivePrivateKeyForPath E sN (newExtendKey E priv pub deduce 0 0 code) path = .ok (k, kb) →
      ∃ Q, derivePublicKeyForPath E (newExtendKey E [] pub deduce 0 0 code) path = .ok Q ∧
        E.curve.On Q ∧ L.val Q = (beNat k : Int) • L.base ∧ ECPoint.scalarBaseMult E.curve (beNat k) = some Q ∧
        k.length = 32 ∧ (beNat k : Int) < E.curve.N ∧ kb = serializeCompressed Q.x Q.y) ∧
    (∀ Q, derivePublicKeyForPath E (newExtendKey E [] pub deduce 0 0 code) path = .ok Q →
      ∃ k kb, derivePrivateKeyForPath E sN (newExtendKey E priv pub deduce 0 0 code) path = .ok (k, kb)) ∧
    (∀ e, derivePrivateKeyForPath E sN (newExtendKey E priv pub deduce 0 0 code) path = .err e ↔
      derivePublicKeyForPath E (newExtendKey E [] pub deduce 0 0 code) path = .err e) := by
  have parts0 : pathParts 0 path = some (split 47 path) := by simp [pathParts]
  have hne := split_ne_nil 47 path
  set pk := newExtendKey E priv pub deduce 0 0 code with hpk
  have epub : newExtendKey E [] pub deduce 0 0 code = pk.public := rfl
  have d1 : pk.depth = 0 := rfl
  have d2 : pk.public.depth = 0 := rfl
  rw [epub]
  have hl := derivePubLoop_public E sN (split 47 path) pk hnh
  unfold derivePrivateKeyForPath derivePublicKeyForPath
  rw [d1, d2, parts0]
  simp only
  rw [hl]
  cases hext : derivePrivLoop E sN pk (split 47 path) with
  | panic => simp [mapRes]
  | err e => simp [mapRes]
  | ok ext =>
    obtain ⟨t, p', o, e1, o', v, c, b, bi, _⟩ := derivePrivLoop_ok L hsN _ _ _ pub rfl hext hne
    have hb0 := Int.emod_nonneg ((beNat pk.priv : Int) + t) (show E.curve.N ≠ 0 by have := L.N_pos; omega)
    have hb1 := Int.emod_lt_of_pos ((beNat pk.priv : Int) + t) L.N_pos
    obtain ⟨l1, l2⟩ := padKey_intBytes (z := (beNat ext.priv : Int)) (by omega) (by omega)
    rw [← bi] at l1 l2
    have hq : newPoint E.curve (Key.public ext).pub = some p' := by
      change newPoint E.curve ext.pub = _
      rw [e1]; exact newPoint_on o'
    simp only [mapRes, hq, l1, e1]
    simp only [ne_eq, not_true_eq_false, if_false, Res.ok.injEq, Prod.mk.injEq, reduceCtorEq]
    refine ⟨?_, by simp, by simp⟩
    rintro k kb ⟨rfl, rfl⟩
    have v' : L.val p' = (beNat (padKey ext.priv) : Int) • L.base := by
      rw [v, hpub, ← add_smul, l2, b]
      exact (zsmul_emod L _).symm
    refine ⟨p', rfl, o', v', ?_, l1, ?_, rfl⟩
    · have bs : ECPoint.scalarBaseMult E.curve (beNat (padKey ext.priv)) =
          ECPoint.new E.curve (L.coords ((beNat (padKey ext.priv) : Int) • L.base)).1
            (L.coords ((beNat (padKey ext.priv) : Int) • L.base)).2 := by
        unfold ECPoint.scalarBaseMult
        simp only
        rw [L.scalarBaseMult_eq, ← natCast_zsmul, beNat_intBytes_emod' L, zsmul_emod L]
      rw [bs, ← v', ← c]
      have := newPoint_on o'
      unfold newPoint at this
      exact this
    · rw [l2, b]; exact hb1

/-- C47: `DeriveChildKeyFromHierarchy` with the curve order as modulus returns the total tweak: child public
key = parent + il·G, child private key = parent + il mod N. -/
theorem C47_hierarchy {E : Env} {sN : Int} {G : Type} [AddCommGroup G] (L : PLawful E.curve G) (hsN : sN = E.curve.N) :
    ∀ (indices : List Nat) (pk k : Key) (p : ECPoint) (il : Int), pk.pub = some p →
      deriveChildKeyFromHierarchy E sN indices pk E.curve.N = .ok (il, k) → indices ≠ [] →
      ∃ q, k.pub = some q ∧ E.curve.On q ∧ L.val q = L.val p + il • L.base ∧
        (beNat k.priv : Int) = ((beNat pk.priv : Int) + il) % E.curve.N := by
  have key : ∀ (indices : List Nat) (pk k : Key) (p : ECPoint) (il0 il : Int), pk.pub = some p →
      hierarchyLoop E sN E.curve.N il0 pk indices = .ok (il, k) → indices ≠ [] →
      ∃ q t, k.pub = some q ∧ E.curve.On q ∧ L.val q = L.val p + t • L.base ∧
        (beNat k.priv : Int) = ((beNat pk.priv : Int) + t) % E.curve.N ∧ il = (il0 + t) % E.curve.N := by
    intro indices
    induction indices with
    | nil => intro _ _ _ _ _ _ _ h; exact absurd rfl h
    | cons i tl ih =>
      intro pk k p il0 il hp h _
      unfold hierarchyLoop at h
      split at h
      · cases h
      · cases h
      · next ilNum child hstep =>
        split at h
        · cases h
        · obtain ⟨p0, d0, p1, d1, e1, e2, e3, e4, o1, o2, o3, o4, s1, s2, s5, s6, s7, s8, s9, _, _⟩ := deriveChildKey_ok L hstep
          rw [hp] at e1; cases e1
          have hb : (beNat child.priv : Int) = (ilNum + (beNat pk.priv : Int)) % E.curve.N := by
            rw [s8, hsN, beNat_intBytes_emod' L]
          by_cases ht : tl = []
          · subst ht
            simp only [hierarchyLoop, Res.ok.injEq, Prod.mk.injEq] at h
            obtain ⟨rfl, rfl⟩ := h
            exact ⟨p1, ilNum, e3, o3, s5, by rw [hb, add_comm], by rw [add_comm]⟩
          · obtain ⟨q, t, r1, r2, r3, r4, r5⟩ := ih child k p1 _ il e3 h ht
            refine ⟨q, ilNum + t, r1, r2, ?_, ?_, ?_⟩
            · rw [r3, s5, add_smul, add_assoc]
            · rw [r4, hb, Int.emod_add_emod]; congr 1; ring
            · rw [r5, Int.emod_add_emod]; congr 1; ring
  intro indices pk k p il hp h hne
  obtain ⟨q, t, r1, r2, r3, r4, r5⟩ := key indices pk k p 0 il hp h hne
  refine ⟨q, r1, r2, ?_, ?_⟩
  · rw [r3, r5, zero_add, zsmul_emod L]
  · rw [r4, r5, zero_add, Int.add_emod_emod]

/-! ### C48 -/

/-- A non-empty string of decimal digits and its value. -/
def spec.Digits (s : Bytes) (n : Nat) : Prop :=
  s ≠ [] ∧ (∀ b ∈ s, 48 ≤ b.toNat ∧ b.toNat ≤ 57) ∧ n = s.foldl (fun a b => a * 10 + (b.toNat - 48)) 0

/-- A decimal integer: optional sign, digits. -/
def spec.Decimal (s : Bytes) (z : Int) : Prop :=
  (∃ n : Nat, spec.Digits s n ∧ z = n) ∨ (∃ t, ∃ n : Nat, s = 43 :: t ∧ spec.Digits t n ∧ z = n) ∨
    (∃ t, ∃ n : Nat, s = 45 :: t ∧ spec.Digits t n ∧ z = -n)

theorem digitVal_lt_ten {b : UInt8} {d : Nat} : (digitVal b = some d ∧ d < 10) ↔
    (48 ≤ b.toNat ∧ b.toNat ≤ 57 ∧ d = b.toNat - 48) := by
  unfold digitVal
  simp only
  split
  · simp; omega
  · split
    · simp; omega
    · split
      · simp; omega
      · simp; omega

theorem digitsVal_ten : ∀ (s : Bytes) (acc n : Nat), digitsVal 10 acc s = some n ↔
    (∀ b ∈ s, 48 ≤ b.toNat ∧ b.toNat ≤ 57) ∧ n = s.foldl (fun a b => a * 10 + (b.toNat - 48)) acc
  | [], acc, n => by simp [digitsVal, eq_comm]
  | b :: t, acc, n => by
    unfold digitsVal
    cases hd : digitVal b with
    | none =>
      simp only [reduceCtorEq, false_iff, not_and]
      intro h
      have h1 := h b (by simp)
      have := (digitVal_lt_ten (b := b) (d := b.toNat - 48)).mpr ⟨h1.1, h1.2, rfl⟩
      rw [hd] at this; simp at this
    | some d =>
      simp only
      by_cases h10 : d < 10
      · rw [if_pos h10]
        have := digitVal_lt_ten.mp ⟨hd, h10⟩
        rw [digitsVal_ten t]
        simp only [List.mem_cons, forall_eq_or_imp, List.foldl_cons, this.2.2]
        tauto
      · rw [if_neg h10]
        simp only [reduceCtorEq, false_iff, not_and]
        intro h
        have h1 := h b (by simp)
        have := (digitVal_lt_ten (b := b) (d := b.toNat - 48)).mpr ⟨h1.1, h1.2, rfl⟩
        rw [hd] at this; simp at this; omega

theorem parseNat_ten (s : Bytes) (n : Nat) : parseNat 10 s = some n ↔ spec.Digits s n := by
  unfold parseNat spec.Digits
  cases s with
  | nil => simp
  | cons b t => simp only [digitsVal_ten]; simp

/-- `strconv.Atoi` accepts exactly the decimal integers in the int64 range. -/
theorem C48_atoi (s : Bytes) (z : Int) : atoi s = some z ↔ spec.Decimal s z ∧ -(2 ^ 63) ≤ z ∧ z < 2 ^ 63 := by
  have pb : ∀ z, parseBig 10 s = some z ↔ spec.Decimal s z := by
    intro z
    unfold parseBig spec.Decimal
    cases s with
    | nil => simp [spec.Digits]
    | cons b t =>
      have hsign : ∀ n, spec.Digits (b :: t) n → b ≠ 43 ∧ b ≠ 45 := by
        intro n h
        have := h.2.1 b (by simp)
        constructor <;> (rintro rfl; revert this; decide)
      simp only
      by_cases h43 : b = 43
      · subst h43
        simp only [if_true, Option.map_eq_some_iff, parseNat_ten, List.cons.injEq]
        constructor
        · rintro ⟨n, h, rfl⟩; exact Or.inr (Or.inl ⟨t, n, ⟨by trivial, rfl⟩, h, rfl⟩)
        · rintro (⟨n, h, rfl⟩ | ⟨t', n, ⟨_, rfl⟩, h, rfl⟩ | ⟨t', n, ⟨h', _⟩, _⟩)
          · exact absurd rfl (hsign n h).1
          · exact ⟨n, h, rfl⟩
          · exact absurd h' (by decide)
      · rw [if_neg h43]
        by_cases h45 : b = 45
        · subst h45
          simp only [if_true, Option.map_eq_some_iff, parseNat_ten, List.cons.injEq]
          constructor
          · rintro ⟨n, h, rfl⟩; exact Or.inr (Or.inr ⟨t, n, ⟨by trivial, rfl⟩, h, rfl⟩)
          · rintro (⟨n, h, rfl⟩ | ⟨t', n, ⟨h', _⟩, _⟩ | ⟨t', n, ⟨_, rfl⟩, h, rfl⟩)
            · exact absurd rfl (hsign n h).2
            · exact absurd h' (by decide)
            · exact ⟨n, h, rfl⟩
        · rw [if_neg h45]
          simp only [Option.map_eq_some_iff, parseNat_ten, List.cons.injEq]
          constructor
          · rintro ⟨n, h, rfl⟩; exact Or.inl ⟨n, h, rfl⟩
          · rintro (⟨n, h, rfl⟩ | ⟨t', n, ⟨h', _⟩, _⟩ | ⟨t', n, ⟨h', _⟩, _⟩)
            · exact ⟨n, h, rfl⟩
            · exact absurd h' h43
            · exact absurd h' h45
  unfold atoi
  cases h : parseBig 10 s with
  | none =>
    simp only [reduceCtorEq, false_iff, not_and]
    intro hd; rw [← pb, h] at hd; cases hd
  | some w =>
    simp only
    have hw := (pb w).mp h
    constructor
    · intro hh
      split at hh
      · next hr => cases hh; exact ⟨hw, hr⟩
      · cases hh
    · rintro ⟨hz, hr⟩
      rw [← pb, h] at hz
      cases hz
      rw [if_pos hr]

/-- The components private derivation accepts: a decimal integer, at least 0, with an optional final
apostrophe; the index is its low 32 bits, and must be below 2^31. -/
def spec.PrivComponent (part : Bytes) (idx : Nat) (harden : Bool) : Prop :=
  ∃ (body : Bytes) (z : Int), ((harden = false ∧ part = body) ∨ (harden = true ∧ part = body ++ [39])) ∧
    spec.Decimal body z ∧ 0 ≤ z ∧ z < 2 ^ 63 ∧ idx = z.toNat % 2 ^ 32

theorem decimal_last {s : Bytes} {z : Int} (h : spec.Decimal s z) : s.getLast? ≠ some 39 := by
  have dig : ∀ t n, spec.Digits t n → t.getLast? ≠ some 39 := by
    intro t n h hl
    have := h.2.1 39 (List.mem_of_getLast? hl)
    revert this; decide
  have ne : ∀ t n, spec.Digits t n → t ≠ [] := fun t n h => h.1
  rcases h with ⟨n, h, _⟩ | ⟨t, n, rfl, h, _⟩ | ⟨t, n, rfl, h, _⟩
  · exact dig s n h
  · rw [List.getLast?_cons_of_ne_nil (ne t n h)]; exact dig t n h
  · rw [List.getLast?_cons_of_ne_nil (ne t n h)]; exact dig t n h

/-- C48: what one component parses to. -/
theorem C48_component (part : Bytes) (idx : Nat) (harden : Bool) :
    parsePart part = .ok (idx, harden) ↔ spec.PrivComponent part idx harden := by
  unfold parsePart
  cases hl : part.getLast? with
  | none =>
    simp only [reduceCtorEq, false_iff]
    have : part = [] := List.getLast?_eq_none_iff.mp hl
    subst this
    rintro ⟨body, z, (⟨_, rfl⟩ | ⟨_, h⟩), hd, _⟩
    · rcases hd with ⟨n, h, _⟩ | ⟨t, n, h, _⟩ | ⟨t, n, h, _⟩
      · exact h.1 rfl
      · cases h
      · cases h
    · simp at h
  | some last =>
    have hne : part ≠ [] := by rintro rfl; simp at hl
    simp only
    have hbody : ∀ body, (part = body ++ [39]) ↔ (last = 39 ∧ body = part.dropLast) := by
      intro body
      constructor
      · rintro rfl
        simp at hl ⊢
        exact hl.symm
      · rintro ⟨rfl, rfl⟩
        have := List.dropLast_concat_getLast hne
        rw [List.getLast?_eq_some_getLast hne, Option.some.injEq] at hl
        rw [hl] at this; exact this.symm
    constructor
    · intro h
      split at h
      · cases h
      · next z ha =>
        split at h
        · cases h
        · next hz =>
          simp only [Res.ok.injEq, Prod.mk.injEq] at h
          obtain ⟨rfl, rfl⟩ := h
          obtain ⟨hdec, _, hlt⟩ := (C48_atoi _ _).mp ha
          by_cases h39 : last = 39
          · simp only [h39, if_true] at hdec
            exact ⟨part.dropLast, z, Or.inr ⟨by simp [h39], (hbody _).mpr ⟨h39, rfl⟩⟩, by simpa using hdec, by omega, hlt, rfl⟩
          · exact ⟨part, z, Or.inl ⟨by simp [h39], rfl⟩, by simpa [h39] using hdec, by omega, hlt, rfl⟩
    · rintro ⟨body, z, hcase, hdec, hz0, hz1, rfl⟩
      have hat := (C48_atoi body z).mpr ⟨hdec, by omega, hz1⟩
      rcases hcase with ⟨rfl, rfl⟩ | ⟨rfl, hb⟩
      · have h39 : last ≠ 39 := by rintro rfl; exact decimal_last hdec hl
        simp only [h39, decide_false, if_false, hat]
        rw [if_neg (by omega)]
      · obtain ⟨rfl, rfl⟩ := (hbody body).mp hb
        simp only [decide_true, if_true, hat]
        rw [if_neg (by omega)]

/-- C48: a component crashes the derivation iff it is empty. -/
theorem C48_component_panics (part : Bytes) :
    (parsePart part = .panic ↔ part = []) ∧ (parsePartPub part = .panic ↔ part = []) := by
  unfold parsePart parsePartPub
  cases hl : part.getLast? with
  | none =>
    have : part = [] := List.getLast?_eq_none_iff.mp hl
    simp [this]
  | some last =>
    have : part ≠ [] := by rintro rfl; simp at hl
    simp only [this, iff_false]
    constructor
    · intro h; split at h <;> [cases h; (split at h <;> cases h)]
    · intro h; split at h <;> [cases h; (split at h <;> [cases h; (split at h <;> cases h)])]

/-- C48: a path that private derivation accepts consists only of acceptable components with indices
below 2^31; conversely if all components are of that form, an error can only come from the depth limit or
from the (cryptographically negligible) degenerate tweaks, never from parsing. -/
theorem C48_priv_path {E : Env} :
    ∀ (parts : List Bytes) (pk : KeyD),
      (∀ k, derivePrivLoopD E pk parts = .ok k →
        ∀ p ∈ parts, ∃ i h, spec.PrivComponent p i h ∧ i < 2 ^ 31) ∧
      ((∀ p ∈ parts, ∃ i h, spec.PrivComponent p i h ∧ i < 2 ^ 31) →
        ∀ e, derivePrivLoopD E pk parts = .err e → e = .maxDepth ∨ e = .invalidDerived ∨ e = .invalidChild ∨ e = .addOffCurve)
  | [], pk => by simp [derivePrivLoopD]
  | part :: t, pk => by
    constructor
    · intro k h p hp
      unfold derivePrivLoopD at h
      split at h
      · cases h
      · cases h
      · next i b hpart =>
        split at h
        · cases h
        · cases h
        · next il child hstep =>
          rcases List.mem_cons.mp hp with rfl | hp
          · refine ⟨i, b, (C48_component _ _ _).mp hpart, ?_⟩
            unfold deriveChildKeyD at hstep
            split at hstep
            · cases hstep
            · next h1 => unfold hardenedKeyStart at h1; omega
          · exact (C48_priv_path t child).1 k h p hp
    · intro hall e h
      obtain ⟨i, b, hc, hi⟩ := hall part (by simp)
      have hpart := (C48_component _ _ _).mpr hc
      unfold derivePrivLoopD at h
      rw [hpart] at h
      simp only at h
      split at h
      · cases h
      · next e' hstep =>
        cases h
        unfold deriveChildKeyD at hstep
        rw [if_neg (by unfold hardenedKeyStart; omega)] at hstep
        split at hstep
        · cases hstep; simp
        · simp only at hstep
          generalize (beNat ((E.hmac512 pk.chainCode ((if b = true then 0 :: pk.priv else serializeCompressed pk.deduce.x pk.deduce.y) ++
            uint32ToBytes (if b = true then i ||| 0x80000000 else i))).take 32) : Int) % E.curve.N = il at hstep
          split at hstep
          · cases hstep; simp
          · split at hstep
            · cases hstep
            · split at hstep
              · cases hstep; simp
              · split at hstep
                · cases hstep; simp
                · split at hstep
                  · cases hstep; simp
                  · cases hstep
      · next il child hstep => exact (C48_priv_path t child).2 (fun p hp => hall p (by simp [hp])) e h

/-- C48: public derivation refuses a hardened component, wherever in the path it comes (once the components
before it have been derived). -/
theorem C48_pub_refuses_hardened (E : Env) (body : Bytes) (rest : List Bytes) :
    ∀ (pre : List Bytes) (pk k : KeyD), derivePubLoopD E pk pre = .ok k →
      derivePubLoopD E pk (pre ++ (body ++ [39]) :: rest) = .err .hardenUnsupported
  | [], pk, k, _ => by
    simp [derivePubLoopD, parsePartPub]
  | part :: t, pk, k, h => by
    unfold derivePubLoopD at h
    rw [List.cons_append]
    unfold derivePubLoopD
    split at h
    · cases h
    · cases h
    · next i hpart =>
      cases hstep : deriveChildPubKeyD E i pk with
      | panic => simp [hstep] at h
      | err e => simp [hstep] at h
      | ok r =>
        rw [hstep] at h
        obtain ⟨il, child⟩ := r
        exact C48_pub_refuses_hardened E body rest t child k h

/-- C48: an empty component (a leading, trailing or doubled slash, or the empty path) crashes both
derivations once the components before it have been derived. -/
theorem C48_empty_component_panics (E : Env) (rest : List Bytes) :
    ∀ (pre : List Bytes) (pk k : KeyD),
      (derivePrivLoopD E pk pre = .ok k → derivePrivLoopD E pk (pre ++ [] :: rest) = .panic) ∧
      (derivePubLoopD E pk pre = .ok k → derivePubLoopD E pk (pre ++ [] :: rest) = .panic)
  | [], pk, k => by simp [derivePrivLoopD, derivePubLoopD, parsePart, parsePartPub]
  | part :: t, pk, k => by
    rw [List.cons_append]
    constructor
    · intro h
      unfold derivePrivLoopD at h ⊢
      split at h
      · cases h
      · cases h
      · next i b hpart =>
        cases hstep : deriveChildKeyD E i b pk with
        | panic => simp [hstep] at h
        | err e => simp [hstep] at h
        | ok r =>
          rw [hstep] at h
          obtain ⟨il, child⟩ := r
          exact (C48_empty_component_panics E rest t child k).1 h
    · intro h
      unfold derivePubLoopD at h ⊢
      split at h
      · cases h
      · cases h
      · next i hpart =>
        cases hstep : deriveChildPubKeyD E i pk with
        | panic => simp [hstep] at h
        | err e => simp [hstep] at h
        | ok r =>
          rw [hstep] at h
          obtain ⟨il, child⟩ := r
          exact (C48_empty_component_panics E rest t child k).2 h

/-- C48: the path strings those component lists come from, for the exported Ed25519 functions: the empty
path and any path starting with a slash crash. -/
theorem C48_leading_slash_panics (E : Env) {priv : Int} (pub deduce : ECPoint) (code rest : Bytes) :
    deriveEddsaChildPrivKey E priv pub deduce code (47 :: rest) = .panic ∧
    deriveEddsaChildPubKey E pub deduce code (47 :: rest) = .panic ∧
    deriveEddsaChildPrivKey E priv pub deduce code [] = .panic ∧
    deriveEddsaChildPubKey E pub deduce code [] = .panic := by
  have s1 : split 47 (47 :: rest) = [] :: split 47 rest := by simp [split]
  have s2 : split 47 [] = [[]] := rfl
  have p1 : ∀ b r, derivePrivateKeyForPathD E (newExtendKeyD E b pub deduce 0 0 code) (47 :: r) = .panic := by
    intro b r
    simp [derivePrivateKeyForPathD, newExtendKeyD, pathParts, split, derivePrivLoopD, parsePart]
  have p2 : ∀ b, derivePrivateKeyForPathD E (newExtendKeyD E b pub deduce 0 0 code) [] = .panic := by
    intro b
    simp [derivePrivateKeyForPathD, newExtendKeyD, pathParts, split, derivePrivLoopD, parsePart]
  refine ⟨?_, ?_, ?_, ?_⟩
  · unfold deriveEddsaChildPrivKey; split
    · rfl
    · exact p1 _ _
  · simp [deriveEddsaChildPubKey, derivePublicKeyForPathD, newExtendKeyD, pathParts, split, derivePubLoopD, parsePartPub]
  · unfold deriveEddsaChildPrivKey; split
    · rfl
    · exact p2 _
  · simp [deriveEddsaChildPubKey, derivePublicKeyForPathD, newExtendKeyD, pathParts, split, derivePubLoopD, parsePartPub]

/-- C48: the exported public derivation crashes on every error (it formats a nil error). -/
theorem C48_pub_error_panics (E : Env) (src deduce : ECPoint) (code path : Bytes) (e : Err) :
    deriveEddsaChildPubKey E src deduce code path ≠ .err e := by
  unfold deriveEddsaChildPubKey
  split <;> simp

/-- C48 (aliasing): indices that differ by 2^32 derive the same keys. -/
theorem C48_index_alias (E : Env) (n m : Nat) (hm : m = n + 2 ^ 32) (h : m < 2 ^ 63) (pk : KeyD) (t : List Bytes) :
    derivePrivLoopD E pk (itoa m :: t) = derivePrivLoopD E pk (itoa n :: t) := by
  have key : ∀ m, m < 2 ^ 63 → parsePart (itoa m) = .ok (m % 2 ^ 32, false) := by
    intro m hm
    rw [C48_component]
    have ha : atoi (itoa m) = some (m : Int) := by
      unfold atoi; rw [parseBig_itoa]
      simp only
      rw [if_pos (by constructor <;> omega)]
    exact ⟨itoa m, m, Or.inl ⟨rfl, rfl⟩, ((C48_atoi _ _).mp ha).1, by omega, by omega, by simp⟩
  have e1 := key m h
  have e2 := key n (by omega)
  have e3 : m % 2 ^ 32 = n % 2 ^ 32 := by omega
  rw [e3] at e1
  generalize itoa m = a at e1 ⊢
  generalize itoa n = b at e2 ⊢
  unfold derivePrivLoopD
  rw [e1, e2]

/-- Concrete components: "0'", "+7", "4294967297" (index 1); "2147483648" parses but is then refused. -/
example : parsePart (ascii "0'") = .ok (0, true) ∧ parsePart (ascii "+7") = .ok (7, false) ∧
    parsePart (ascii "4294967297") = .ok (1, false) ∧ parsePart (ascii "2147483648") = .ok (2147483648, false) ∧
    parsePart (ascii "x") = .err .badNumber ∧ parsePart (ascii "-1") = .err .negative := by decide +kernel

/-- An environment with a toy "HMAC" on edwards25519 (every tweak is 1). -/
def toyEnv : Env where
  curve := Ed.curve
  hash160 := id
  hmac512 _ _ := List.replicate 31 0 ++ [1] ++ List.replicate 32 1

theorem step_isOk (E : Env) (i : Nat) (hi : i < 2 ^ 31) (h : Bool) (pk : KeyD) (il : Int) (dG q d : ECPoint)
    (hdep : pk.depth ≠ 255) (hil : ∀ data, ((beNat ((E.hmac512 pk.chainCode data).take 32) : Nat) : Int) % E.curve.N = il)
    (h1 : ¬ (il ≥ E.curve.N ∨ il = 0)) (hb : ECPoint.scalarBaseMult E.curve il = some dG) (h2 : ¬ (dG.x = 0 ∨ dG.y = 0))
    (hq : ECPoint.add E.curve pk.pub dG = some q) (hd : ECPoint.add E.curve pk.deduce dG = some d) :
    ∃ r : Int × KeyD, deriveChildKeyD E i h pk = .ok r ∧ r.2.pub = q ∧ r.2.deduce = d ∧ r.2.depth = pk.depth + 1 ∧
      r.2.priv = intBytes ((il + (beNat pk.priv : Int)) % E.curve.N) := by
  unfold deriveChildKeyD
  rw [if_neg (by unfold hardenedKeyStart; omega), if_neg (show ¬ pk.depth = maxDepth from hdep)]
  simp only [hil, hb, h1, h2, hq, hd, if_false]
  exact ⟨_, rfl, rfl, rfl, rfl, rfl⟩

theorem toyEnv_step (i : Nat) (hi : i < 2 ^ 31) (h : Bool) (pk : KeyD) (hp : Ed.curve.On pk.pub) (hd : Ed.curve.On pk.deduce)
    (hdep : pk.depth ≠ 255) : ∃ r : Int × KeyD, deriveChildKeyD toyEnv i h pk = .ok r ∧ Ed.curve.On r.2.pub ∧
      Ed.curve.On r.2.deduce ∧ r.2.depth = pk.depth + 1 ∧ r.2.priv.length ≤ 32 := by
  have il : ((beNat ((List.replicate 31 0 ++ [1] ++ List.replicate 32 1 : Bytes).take 32) : Nat) : Int) % Ed.curve.N = 1 := by
    decide +kernel
  have hb : ECPoint.scalarBaseMult Ed.curve 1 = some ⟨Ed.Bx, Ed.By⟩ := by
    rw [Ed.lawful.scalarBaseMult_pt, one_smul]
    have e : Ed.coords Ed.B = ((Ed.Bx : Int), (Ed.By : Int)) := by
      unfold Ed.coords Ed.B
      rw [ZMod.val_natCast, ZMod.val_natCast, Nat.mod_eq_of_lt (by decide +kernel), Nat.mod_eq_of_lt (by decide +kernel)]
    change some (⟨(Ed.coords Ed.B).1, (Ed.coords Ed.B).2⟩ : ECPoint) = _
    rw [e]
  have hB : Ed.curve.On ⟨Ed.Bx, Ed.By⟩ := by decide +kernel
  obtain ⟨r, r1, r2, r3, r4, r5⟩ := step_isOk toyEnv i hi h pk 1 _ _ _ hdep (fun _ => il) (by decide +kernel) hb
    (by decide +kernel) (Ed.lawful.add_pt hp hB) (Ed.lawful.add_pt hd hB)
  refine ⟨r, r1, by rw [r2]; exact Ed.lawful.on_pt _, by rw [r3]; exact Ed.lawful.on_pt _, r4, ?_⟩
  rw [r5]
  apply natBE_length_le
  have := Int.emod_lt_of_pos (1 + (beNat pk.priv : Int)) (show (0 : Int) < Ed.curve.N by decide +kernel)
  have h2 := Int.emod_nonneg (1 + (beNat pk.priv : Int)) (show Ed.curve.N ≠ 0 by decide +kernel)
  have h3 : Ed.curve.N < 256 ^ 32 := by decide +kernel
  have e : toyEnv.curve = Ed.curve := rfl
  rw [e]
  generalize Ed.curve.N = N at *
  omega

/-- The hypotheses of `C47_eddsa_priv_pub_agree` are met by private key 1, and both derivations of the path
"44/7" succeed. -/
example : Ed.curve.On ⟨Ed.Bx, Ed.By⟩ ∧ Ed.toPt Ed.Bx Ed.By = (1 : Int) • Ed.B ∧ spec.NonHardened (ascii "44/7") ∧
    ∃ k kb Q,
      deriveEddsaChildPrivKey toyEnv 1 ⟨Ed.Bx, Ed.By⟩ ⟨Ed.Bx, Ed.By⟩ (List.replicate 32 9) (ascii "44/7") = .ok (k, kb) ∧
      deriveEddsaChildPubKey toyEnv ⟨Ed.Bx, Ed.By⟩ ⟨Ed.Bx, Ed.By⟩ (List.replicate 32 9) (ascii "44/7") = .ok Q := by
  have hB : Ed.curve.On ⟨Ed.Bx, Ed.By⟩ := by decide +kernel
  have hv : Ed.toPt Ed.Bx Ed.By = (1 : Int) • Ed.B := by
    rw [one_smul]; exact Ed.lawful.base_eq
  have hnh : spec.NonHardened (ascii "44/7") := by decide +kernel
  refine ⟨hB, hv, hnh, ?_⟩
  have parts : pathParts 0 (ascii "44/7") = some [ascii "44", ascii "7"] := by decide +kernel
  have q1 : parsePart (ascii "44") = .ok (44, false) := by decide +kernel
  have q2 : parsePart (ascii "7") = .ok (7, false) := by decide +kernel
  have fb : fillBytes 32 1 = some (beFixed 32 1) := by decide +kernel
  obtain ⟨⟨i1, k1⟩, e1, o1, d1, n1, _⟩ := toyEnv_step 44 (by norm_num) false
    (newExtendKeyD toyEnv (beFixed 32 1) ⟨Ed.Bx, Ed.By⟩ ⟨Ed.Bx, Ed.By⟩ 0 0 (List.replicate 32 9)) hB hB (by simp [newExtendKeyD])
  obtain ⟨⟨i2, k2⟩, e2, o2, d2, n2, l2⟩ := toyEnv_step 7 (by norm_num) false k1 o1 d1 (by rw [n1]; simp [newExtendKeyD])
  have hpriv : ∃ k kb, deriveEddsaChildPrivKey toyEnv 1 ⟨Ed.Bx, Ed.By⟩ ⟨Ed.Bx, Ed.By⟩ (List.replicate 32 9) (ascii "44/7") = .ok (k, kb) := by
    unfold deriveEddsaChildPrivKey derivePrivateKeyForPathD
    rw [fb]
    simp only
    rw [show (newExtendKeyD toyEnv (beFixed 32 1) ⟨Ed.Bx, Ed.By⟩ ⟨Ed.Bx, Ed.By⟩ 0 0 (List.replicate 32 9)).depth = 0 from rfl, parts]
    simp only [derivePrivLoopD, q1, q2, e1, e2]
    have hl : (padKey k2.priv).length = 32 := by
      simp only at l2
      unfold padKey
      split
      · simp; omega
      · omega
    rw [if_neg (by simp [hl])]
    exact ⟨_, _, rfl⟩
  obtain ⟨k, kb, hk⟩ := hpriv
  obtain ⟨Q, hQ, _⟩ := (C47_eddsa_priv_pub_agree (E := toyEnv) rfl (by norm_num) (by norm_num) hB hB hv
    (List.replicate 32 9) (ascii "44/7") hnh).1 k kb hk
  exact ⟨k, kb, Q, hk, hQ⟩

end Tss.Ckd
