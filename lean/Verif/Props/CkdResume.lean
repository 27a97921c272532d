import Verif.Lemmas.Ckd
/-
Properties C48 and C70 (crypto/ckd): fresh extended keys, and derivations that are resumed from an intermediate key.
-/
namespace Tss.Ckd
open Tss Text

/-- C70: a fresh extended key holds what it is given; its fingerprint field is the first four octets of the hash of its own
compressed point (BIP32 puts the parent's there, zeros for a master key) and its version is one zero octet. -/
theorem C70_fresh_key (E : Env) (priv : Bytes) (pub deduce : ECPoint) (index depth : Nat) (code : Bytes) :
    let fp := ((E.hash160 (serializeCompressed deduce.x deduce.y)).drop 0).take 4
    newExtendKeyD E priv pub deduce index depth code = ⟨pub, deduce, depth, index, priv, code, fp, [0]⟩ ∧
    newExtendKey E priv pub deduce index depth code = ⟨some pub, some deduce, depth, index, priv, code, fp, [0]⟩ :=
  ⟨rfl, rfl⟩

/-! ### Specification: single derivation steps along components -/

/-- Single private Ed25519 steps along a list of path components. -/
inductive WalkD (E : Env) : KeyD → List Bytes → KeyD → Prop
  | nil (k : KeyD) : WalkD E k [] k
  | cons {k k' r : KeyD} {part : Bytes} {t : List Bytes} {idx : Nat} {harden : Bool} {il : Int} :
      parsePart part = .ok (idx, harden) → deriveChildKeyD E idx harden k = .ok (il, k') → WalkD E k' t r →
      WalkD E k (part :: t) r

/-- Single public Ed25519 steps along a list of path components. -/
inductive WalkPubD (E : Env) : KeyD → List Bytes → KeyD → Prop
  | nil (k : KeyD) : WalkPubD E k [] k
  | cons {k k' r : KeyD} {part : Bytes} {t : List Bytes} {idx : Nat} {il : Int} :
      parsePartPub part = .ok idx → deriveChildPubKeyD E idx k = .ok (il, k') → WalkPubD E k' t r →
      WalkPubD E k (part :: t) r

/-- Single private secp256k1 steps along a list of path components. -/
inductive Walk (E : Env) (sN : Int) : Key → List Bytes → Key → Prop
  | nil (k : Key) : Walk E sN k [] k
  | cons {k k' r : Key} {part : Bytes} {t : List Bytes} {idx : Nat} {harden : Bool} {il : Int} :
      parsePart part = .ok (idx, harden) → deriveChildKey E sN idx harden k = .ok (il, k') → Walk E sN k' t r →
      Walk E sN k (part :: t) r

/-- Single public secp256k1 steps along a list of path components. -/
inductive WalkPub (E : Env) : Key → List Bytes → Key → Prop
  | nil (k : Key) : WalkPub E k [] k
  | cons {k k' r : Key} {part : Bytes} {t : List Bytes} {idx : Nat} {il : Int} :
      parsePartPub part = .ok idx → deriveChildPubKey E idx k = .ok (il, k') → WalkPub E k' t r →
      WalkPub E k (part :: t) r

/-! ### One step increases the depth by one -/

theorem childD_depth {E : Env} {idx : Nat} {harden : Bool} {k k' : KeyD} {il : Int}
    (h : deriveChildKeyD E idx harden k = .ok (il, k')) : k'.depth = k.depth + 1 := by
  unfold deriveChildKeyD at h
  split at h
  · cases h
  · split at h
    · cases h
    · simp only at h
      repeat' (first | (split at h) | (simp only [Res.ok.injEq, Prod.mk.injEq] at h; rw [← h.2]) | cases h)

theorem childPubD_depth {E : Env} {idx : Nat} {k k' : KeyD} {il : Int}
    (h : deriveChildPubKeyD E idx k = .ok (il, k')) : k'.depth = k.depth + 1 := by
  unfold deriveChildPubKeyD at h
  split at h
  · cases h
  · split at h
    · cases h
    · simp only at h
      repeat' (first | (split at h) | (simp only [Res.ok.injEq, Prod.mk.injEq] at h; rw [← h.2]) | cases h)

theorem child_depth {E : Env} {sN : Int} {idx : Nat} {harden : Bool} {k k' : Key} {il : Int}
    (h : deriveChildKey E sN idx harden k = .ok (il, k')) : k'.depth = k.depth + 1 := by
  unfold deriveChildKey at h
  split at h
  · cases h
  · split at h
    · cases h
    · simp only at h
      repeat' (first | (split at h) | (simp only [Res.ok.injEq, Prod.mk.injEq] at h; rw [← h.2]) | cases h)

theorem childPub_depth {E : Env} {idx : Nat} {k k' : Key} {il : Int}
    (h : deriveChildPubKey E idx k = .ok (il, k')) : k'.depth = k.depth + 1 := by
  unfold deriveChildPubKey at h
  split at h
  · cases h
  · split at h
    · cases h
    · simp only at h
      repeat' (first | (split at h) | (simp only [Res.ok.injEq, Prod.mk.injEq] at h; rw [← h.2]) | cases h)

/-! ### A loop splits into its first part and the rest -/

theorem WalkD.spec {E : Env} {k r : KeyD} {l : List Bytes} (h : WalkD E k l r) :
    r.depth = k.depth + l.length ∧ ∀ l', derivePrivLoopD E k (l ++ l') = derivePrivLoopD E r l' := by
  induction h with
  | nil k => exact ⟨rfl, fun _ => rfl⟩
  | cons hp hd _ ih =>
    refine ⟨by rw [ih.1, childD_depth hd, List.length_cons]; omega, fun l' => ?_⟩
    rw [List.cons_append, derivePrivLoopD, hp]; simp only [hd]; exact ih.2 l'

theorem WalkPubD.spec {E : Env} {k r : KeyD} {l : List Bytes} (h : WalkPubD E k l r) :
    r.depth = k.depth + l.length ∧ ∀ l', derivePubLoopD E k (l ++ l') = derivePubLoopD E r l' := by
  induction h with
  | nil k => exact ⟨rfl, fun _ => rfl⟩
  | cons hp hd _ ih =>
    refine ⟨by rw [ih.1, childPubD_depth hd, List.length_cons]; omega, fun l' => ?_⟩
    rw [List.cons_append, derivePubLoopD, hp]; simp only [hd]; exact ih.2 l'

theorem Walk.spec {E : Env} {sN : Int} {k r : Key} {l : List Bytes} (h : Walk E sN k l r) :
    r.depth = k.depth + l.length ∧ ∀ l', derivePrivLoop E sN k (l ++ l') = derivePrivLoop E sN r l' := by
  induction h with
  | nil k => exact ⟨rfl, fun _ => rfl⟩
  | cons hp hd _ ih =>
    refine ⟨by rw [ih.1, child_depth hd, List.length_cons]; omega, fun l' => ?_⟩
    rw [List.cons_append, derivePrivLoop, hp]; simp only [hd]; exact ih.2 l'

theorem WalkPub.spec {E : Env} {k r : Key} {l : List Bytes} (h : WalkPub E k l r) :
    r.depth = k.depth + l.length ∧ ∀ l', derivePubLoop E k (l ++ l') = derivePubLoop E r l' := by
  induction h with
  | nil k => exact ⟨rfl, fun _ => rfl⟩
  | cons hp hd _ ih =>
    refine ⟨by rw [ih.1, childPub_depth hd, List.length_cons]; omega, fun l' => ?_⟩
    rw [List.cons_append, derivePubLoop, hp]; simp only [hd]; exact ih.2 l'

theorem pathParts_split {path : Bytes} {l l' : List Bytes} (h : split 47 path = l ++ l') (d : Nat) (hd : d = 0 + l.length) :
    pathParts d path = some l' := by
  unfold pathParts
  rw [h]
  have e : d = l.length := by omega
  subst e
  by_cases h0 : l.length > 0
  · simp [h0]
  · have : l = [] := List.eq_nil_of_length_eq_zero (by omega)
    subst this; simp

/-- C48: derivation can be interrupted and resumed.  If single steps along the first components of a path lead from a key
of depth 0 to k, then handing k and the *whole* path to the path functions gives exactly what they give for the first key:
the components already used are skipped. -/
theorem C48_resume (E : Env) (path : Bytes) (l l' : List Bytes) (hs : split 47 path = l ++ l') :
    (∀ k r : KeyD, k.depth = 0 → WalkD E k l r → derivePrivateKeyForPathD E r path = derivePrivateKeyForPathD E k path) ∧
    (∀ k r : KeyD, k.depth = 0 → WalkPubD E k l r → derivePublicKeyForPathD E r path = derivePublicKeyForPathD E k path) ∧
    (∀ (sN : Int) (k r : Key), k.depth = 0 → Walk E sN k l r → derivePrivateKeyForPath E sN r path = derivePrivateKeyForPath E sN k path) ∧
    (∀ k r : Key, k.depth = 0 → WalkPub E k l r → derivePublicKeyForPath E r path = derivePublicKeyForPath E k path) := by
  have p0 : pathParts 0 path = some (l ++ l') := pathParts_split (l := []) hs 0 rfl
  refine ⟨fun k r h0 w => ?_, fun k r h0 w => ?_, fun sN k r h0 w => ?_, fun k r h0 w => ?_⟩
  · obtain ⟨d, e⟩ := w.spec
    rw [h0] at d
    unfold derivePrivateKeyForPathD
    rw [h0, p0, pathParts_split hs _ d]; simp only [e]
  · obtain ⟨d, e⟩ := w.spec
    rw [h0] at d
    unfold derivePublicKeyForPathD
    rw [h0, p0, pathParts_split hs _ d]; simp only [e]
  · obtain ⟨d, e⟩ := w.spec
    rw [h0] at d
    unfold derivePrivateKeyForPath
    rw [h0, p0, pathParts_split hs _ d]; simp only [e]
  · obtain ⟨d, e⟩ := w.spec
    rw [h0] at d
    unfold derivePublicKeyForPath
    rw [h0, p0, pathParts_split hs _ d]; simp only [e]

/-- C48, finding: a key that is deeper than the path has components crashes all four path functions. -/
theorem C48_deeper_than_path (E : Env) (path : Bytes) (sN : Int) (k : KeyD) (k' : Key)
    (h : (split 47 path).length < k.depth) (h' : (split 47 path).length < k'.depth) :
    derivePrivateKeyForPathD E k path = .panic ∧ derivePublicKeyForPathD E k path = .panic ∧
    derivePrivateKeyForPath E sN k' path = .panic ∧ derivePublicKeyForPath E k' path = .panic := by
  have e : ∀ d, (split 47 path).length < d → pathParts d path = none := by
    intro d hd
    unfold pathParts
    simp only
    rw [if_pos (by omega), if_pos hd]
  refine ⟨?_, ?_, ?_, ?_⟩
  · unfold derivePrivateKeyForPathD; rw [e _ h]
  · unfold derivePublicKeyForPathD; rw [e _ h]
  · unfold derivePrivateKeyForPath; rw [e _ h']
  · unfold derivePublicKeyForPath; rw [e _ h']

/-- Non-vacuity of the split: "44/7" is the component "44" followed by "7". -/
example : split 47 (ascii "44/7") = [ascii "44"] ++ [ascii "7"] := by decide +kernel

/-- Non-vacuity of the walks: whenever the one-component path can be derived, the first step of a two-component path exists. -/
example (E : Env) (k : KeyD) (il : Int) (k' : KeyD) (h : deriveChildKeyD E 44 false k = .ok (il, k')) :
    WalkD E k [ascii "44"] k' := .cons (idx := 44) (harden := false) (by decide +kernel) h (.nil _)

end Tss.Ckd
