import Verif.Props.Ckd
/-
Property C48 (crypto/ckd): a derivation depends on what the components of its path mean, not on how they are written.
-/
namespace Tss.Ckd
open Tss Text

/-- Two components mean the same: the same number modulo 2^32, both hardened or both not. -/
def spec.SameComponent (a b : Bytes) : Prop := ∃ i h, spec.PrivComponent a i h ∧ spec.PrivComponent b i h

/-- Two paths mean the same, component by component. -/
def spec.SamePath (p q : Bytes) : Prop := List.Forall₂ spec.SameComponent (split 47 p) (split 47 q)

theorem same_part {a b : Bytes} (h : spec.SameComponent a b) : parsePart a = parsePart b := by
  obtain ⟨i, hh, h1, h2⟩ := h
  rw [(C48_component a i hh).mpr h1, (C48_component b i hh).mpr h2]

theorem pub_of_part {a : Bytes} {i : Nat} {h : Bool} (ha : parsePart a = .ok (i, h)) :
    parsePartPub a = if h then .err .hardenUnsupported else .ok i := by
  unfold parsePart at ha
  unfold parsePartPub
  split at ha
  · cases ha
  next last hl =>
  by_cases hq : last = 39
  · subst hq
    rw [if_pos rfl]
    simp only at ha
    split at ha
    · cases ha
    split at ha
    · cases ha
    · cases ha; rfl
  · rw [if_neg hq]
    simp only [hq, decide_false, if_false] at ha
    split at ha
    · cases ha
    next z hz =>
    split at ha
    · cases ha
    next hneg => cases ha; simp only [if_neg hneg, Bool.false_eq_true, if_false]

theorem same_part_pub {a b : Bytes} (h : spec.SameComponent a b) : parsePartPub a = parsePartPub b := by
  obtain ⟨i, hh, h1, h2⟩ := h
  rw [pub_of_part ((C48_component a i hh).mpr h1), pub_of_part ((C48_component b i hh).mpr h2)]

theorem same_loops (E : Env) (sN : Int) {l l' : List Bytes} (h : List.Forall₂ spec.SameComponent l l') :
    (∀ k, derivePrivLoopD E k l = derivePrivLoopD E k l') ∧ (∀ k, derivePubLoopD E k l = derivePubLoopD E k l') ∧
    (∀ k, derivePrivLoop E sN k l = derivePrivLoop E sN k l') ∧ (∀ k, derivePubLoop E k l = derivePubLoop E k l') := by
  induction h with
  | nil => exact ⟨fun _ => rfl, fun _ => rfl, fun _ => rfl, fun _ => rfl⟩
  | cons hc _ ih =>
    obtain ⟨i1, i2, i3, i4⟩ := ih
    refine ⟨fun k => ?_, fun k => ?_, fun k => ?_, fun k => ?_⟩
    · unfold derivePrivLoopD; rw [same_part hc]; simp only [i1]
    · unfold derivePubLoopD; rw [same_part_pub hc]; simp only [i2]
    · unfold derivePrivLoop; rw [same_part hc]; simp only [i3]
    · unfold derivePubLoop; rw [same_part_pub hc]; simp only [i4]

theorem same_parts {p q : Bytes} (h : spec.SamePath p q) (d : Nat) :
    (pathParts d p = none ∧ pathParts d q = none) ∨
      ∃ l l', pathParts d p = some l ∧ pathParts d q = some l' ∧ List.Forall₂ spec.SameComponent l l' := by
  have hl := List.Forall₂.length_eq h
  unfold pathParts
  simp only
  rw [hl]
  by_cases hd : d > 0
  · rw [if_pos hd, if_pos hd]
    by_cases hg : d > (split 47 q).length
    · rw [if_pos hg, if_pos hg]; exact .inl ⟨rfl, rfl⟩
    · rw [if_neg hg, if_neg hg]; exact .inr ⟨_, _, rfl, rfl, List.forall₂_drop d h⟩
  · rw [if_neg hd, if_neg hd]; exact .inr ⟨_, _, rfl, rfl, h⟩

/-- C48: paths that mean the same give the same keys, or the same error, or both crash: privately and publicly, on both curves, from
every extended key. -/
theorem C48_same_path (E : Env) (sN : Int) {p q : Bytes} (h : spec.SamePath p q) :
    (∀ k, derivePrivateKeyForPathD E k p = derivePrivateKeyForPathD E k q) ∧
    (∀ k, derivePublicKeyForPathD E k p = derivePublicKeyForPathD E k q) ∧
    (∀ k, derivePrivateKeyForPath E sN k p = derivePrivateKeyForPath E sN k q) ∧
    (∀ k, derivePublicKeyForPath E k p = derivePublicKeyForPath E k q) := by
  refine ⟨fun k => ?_, fun k => ?_, fun k => ?_, fun k => ?_⟩
  · unfold derivePrivateKeyForPathD
    rcases same_parts h k.depth with ⟨h1, h2⟩ | ⟨l, l', h1, h2, hf⟩
    · rw [h1, h2]
    · rw [h1, h2]; simp only [(same_loops E sN hf).1]
  · unfold derivePublicKeyForPathD
    rcases same_parts h k.depth with ⟨h1, h2⟩ | ⟨l, l', h1, h2, hf⟩
    · rw [h1, h2]
    · rw [h1, h2]; simp only [(same_loops E sN hf).2.1]
  · unfold derivePrivateKeyForPath
    rcases same_parts h k.depth with ⟨h1, h2⟩ | ⟨l, l', h1, h2, hf⟩
    · rw [h1, h2]
    · rw [h1, h2]; simp only [(same_loops E sN hf).2.2.1]
  · unfold derivePublicKeyForPath
    rcases same_parts h k.depth with ⟨h1, h2⟩ | ⟨l, l', h1, h2, hf⟩
    · rw [h1, h2]
    · rw [h1, h2]; simp only [(same_loops E sN hf).2.2.2]

/-- C48: so signing derives the same share and the same public shares from both. -/
theorem C48_same_child (E : Env) {p q : Bytes} (h : spec.SamePath p q) (priv : Int) (pub deduce : ECPoint) (code : Bytes) :
    deriveEddsaChildPrivKey E priv pub deduce code p = deriveEddsaChildPrivKey E priv pub deduce code q ∧
    deriveEddsaChildPubKey E pub deduce code p = deriveEddsaChildPubKey E pub deduce code q := by
  obtain ⟨h1, h2, -, -⟩ := C48_same_path E 0 h
  unfold deriveEddsaChildPrivKey deriveEddsaChildPubKey
  simp only [h1, h2, and_self]

theorem sameComponent_of {a b : Bytes} {i : Nat} {h : Bool} (ha : parsePart a = .ok (i, h)) (hb : parsePart b = .ok (i, h)) :
    spec.SameComponent a b := ⟨i, h, (C48_component a i h).mp ha, (C48_component b i h).mp hb⟩

/-- The hypotheses are met: the same path, written in two ways. -/
example : spec.SamePath (ascii "0/1/2") (ascii "00/+1/4294967298") :=
  .cons (sameComponent_of (i := 0) (h := false) (by rfl) (by rfl))
    (.cons (sameComponent_of (i := 1) (h := false) (by rfl) (by rfl))
      (.cons (sameComponent_of (i := 2) (h := false) (by rfl) (by rfl)) .nil))

end Tss.Ckd
