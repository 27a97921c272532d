import Verif.Model.Ckd
import Verif.Lemmas.EC
import Verif.Lemmas.Text
/-
Lemmas about child key derivation.
-/
namespace Tss

/-- Like `Lawful`, but the neutral element (or any other) may have no affine coordinates on the curve: a
group operation may yield an off-curve pair, which `NewECPoint` then rejects (short Weierstrass curves). -/
structure PLawful (c : Curve) (G : Type) [AddCommGroup G] where
  toG : Int → Int → G
  coords : G → Int × Int
  toG_coords : ∀ g, c.isOnCurve (coords g).1 (coords g).2 = true → toG (coords g).1 (coords g).2 = g
  add_eq : ∀ x y x' y', c.isOnCurve x y = true → c.isOnCurve x' y' = true →
    c.add x y x' y' = coords (toG x y + toG x' y')
  base : G
  scalarBaseMult_eq : ∀ k, c.scalarBaseMult k = coords (beNat k • base)
  N_pos : 0 < c.N
  N_base : c.N • base = 0

/-- A lawful curve is in particular partially lawful. -/
def Lawful.toPLawful {c : Curve} {G : Type} [AddCommGroup G] (L : Lawful c G) : PLawful c G where
  toG := L.toG
  coords := L.coords
  toG_coords g _ := L.toG_coords g
  add_eq := L.add_eq
  base := L.base
  scalarBaseMult_eq := L.scalarBaseMult_eq
  N_pos := L.N_pos
  N_base := L.N_base

namespace PLawful
variable {c : Curve} {G : Type} [AddCommGroup G] (L : PLawful c G)

/-- The group element of a point. -/
def val (p : ECPoint) : G := L.toG p.x p.y

theorem new_some {x y : Int} {p : ECPoint} (h : ECPoint.new c x y = some p) : p = ⟨x, y⟩ ∧ c.On p := by
  unfold ECPoint.new at h
  split at h
  · next h' => cases h; exact ⟨rfl, h'⟩
  · cases h

theorem add_some {p q r : ECPoint} (hp : c.On p) (hq : c.On q) (h : ECPoint.add c p q = some r) :
    c.On r ∧ L.val r = L.val p + L.val q ∧ (r.x, r.y) = L.coords (L.val p + L.val q) := by
  unfold ECPoint.add at h
  obtain ⟨rfl, hr⟩ := new_some h
  have e := L.add_eq p.x p.y q.x q.y hp hq
  refine ⟨hr, ?_, ?_⟩
  · unfold val Curve.On at *
    simp only [e] at hr ⊢
    exact L.toG_coords _ hr
  · exact e

theorem base_some {k : Int} {r : ECPoint} (h : ECPoint.scalarBaseMult c k = some r) :
    c.On r ∧ L.val r = k • L.base ∧ (r.x, r.y) = L.coords (k • L.base) := by
  unfold ECPoint.scalarBaseMult at h
  obtain ⟨rfl, hr⟩ := new_some h
  have e := L.scalarBaseMult_eq (intBytes (k % c.N))
  have hk : ((beNat (intBytes (k % c.N)) : Nat) : Int) = k % c.N := by
    rw [beNat_intBytes]
    have := Int.emod_nonneg k (show c.N ≠ 0 from by have := L.N_pos; omega)
    omega
  rw [← natCast_zsmul, hk] at e
  have hm : (k % c.N) • L.base = k • L.base := by
    conv_rhs => rw [← Int.emod_add_mul_ediv k c.N]
    rw [add_smul, mul_comm, mul_smul, L.N_base, smul_zero, add_zero]
  rw [hm] at e
  refine ⟨hr, ?_, e⟩
  unfold val Curve.On at *
  simp only [e] at hr ⊢
  exact L.toG_coords _ hr

end PLawful

namespace Ckd
open Text

/-- Forget the private key. -/
def KeyD.public (k : KeyD) : KeyD := { k with priv := [] }
/-- Forget the private key. -/
def Key.public (k : Key) : Key := { k with priv := [] }

/-- Map over the result of a call. -/
def mapRes {α β : Type} (f : α → β) : Res Err α → Res Err β
  | .ok a => .ok (f a)
  | .err e => .err e
  | .panic => .panic

theorem deriveChildPubKeyD_public (E : Env) (idx : Nat) (pk : KeyD) :
    deriveChildPubKeyD E idx pk.public = mapRes (fun r => (r.1, r.2.public)) (deriveChildKeyD E idx false pk) := by
  unfold deriveChildPubKeyD deriveChildKeyD KeyD.public
  simp only [Bool.false_eq_true, if_false]
  generalize E.hmac512 pk.chainCode (serializeCompressed pk.deduce.x pk.deduce.y ++ uint32ToBytes idx) = ilr
  generalize ((beNat (ilr.take 32) : Nat) : Int) % E.curve.N = il
  split
  · rfl
  · split
    · rfl
    · split
      · rfl
      · cases ECPoint.scalarBaseMult E.curve il with
        | none => rfl
        | some dG =>
          simp only
          split
          · rfl
          · cases ECPoint.add E.curve pk.pub dG with
            | none => rfl
            | some q =>
              cases ECPoint.add E.curve pk.deduce dG <;> rfl

theorem deriveChildPubKey_public (E : Env) (sN : Int) (idx : Nat) (pk : Key) :
    deriveChildPubKey E idx pk.public = mapRes (fun r => (r.1, r.2.public)) (deriveChildKey E sN idx false pk) := by
  unfold deriveChildPubKey deriveChildKey Key.public
  simp only [Bool.false_eq_true, if_false]
  split
  · rfl
  · split
    · rfl
    · cases newPoint E.curve pk.pub with
      | none => rfl
      | some cp =>
        cases newPoint E.curve pk.deduce with
        | none => rfl
        | some dp =>
          simp only
          generalize E.hmac512 pk.chainCode (serializeCompressed dp.x dp.y ++ uint32ToBytes idx) = ilr
          generalize ((beNat (ilr.take 32) : Nat) : Int) = il
          split
          · rfl
          · cases ECPoint.scalarBaseMult E.curve il with
            | none => rfl
            | some dG =>
              simp only
              split
              · rfl
              · cases ECPoint.add E.curve cp dG with
                | none => rfl
                | some q =>
                  cases ECPoint.add E.curve dp dG <;> rfl

/-- A component without an apostrophe at the end. -/
def NotHardened (part : Bytes) : Prop := part.getLast? ≠ some 39

theorem parsePartPub_eq {part : Bytes} (h : NotHardened part) :
    parsePartPub part = mapRes (fun r => r.1) (parsePart part) ∧
      ∀ i b, parsePart part = .ok (i, b) → b = false := by
  unfold NotHardened at h
  unfold parsePartPub parsePart
  cases hl : part.getLast? with
  | none => simp [mapRes]
  | some last =>
    have hne : last ≠ 39 := by intro e; exact h (by rw [hl, e])
    simp only [hne, if_false, decide_false]
    cases atoi part with
    | none => simp [mapRes]
    | some idx =>
      simp only
      split <;> simp_all [mapRes]

theorem derivePubLoopD_public (E : Env) : ∀ (parts : List Bytes) (pk : KeyD), (∀ p ∈ parts, NotHardened p) →
    derivePubLoopD E pk.public parts = mapRes KeyD.public (derivePrivLoopD E pk parts)
  | [], pk, _ => rfl
  | part :: t, pk, h => by
    obtain ⟨e1, e2⟩ := parsePartPub_eq (h part (by simp))
    unfold derivePubLoopD derivePrivLoopD
    rw [e1]
    cases hp : parsePart part with
    | panic => rfl
    | err e => rfl
    | ok r =>
      obtain ⟨i, b⟩ := r
      have hb := e2 i b hp
      subst hb
      simp only [mapRes]
      rw [deriveChildPubKeyD_public]
      cases deriveChildKeyD E i false pk with
      | panic => rfl
      | err e => rfl
      | ok r => exact derivePubLoopD_public E t r.2 fun p hp => h p (by simp [hp])

theorem derivePubLoop_public (E : Env) (sN : Int) : ∀ (parts : List Bytes) (pk : Key), (∀ p ∈ parts, NotHardened p) →
    derivePubLoop E pk.public parts = mapRes Key.public (derivePrivLoop E sN pk parts)
  | [], pk, _ => rfl
  | part :: t, pk, h => by
    obtain ⟨e1, e2⟩ := parsePartPub_eq (h part (by simp))
    unfold derivePubLoop derivePrivLoop
    rw [e1]
    cases hp : parsePart part with
    | panic => rfl
    | err e => rfl
    | ok r =>
      obtain ⟨i, b⟩ := r
      have hb := e2 i b hp
      subst hb
      simp only [mapRes]
      rw [deriveChildPubKey_public]
      cases deriveChildKey E sN i false pk with
      | panic => rfl
      | err e => rfl
      | ok r => exact derivePubLoop_public E sN t r.2 fun p hp => h p (by simp [hp])

/-- Everything one derivation step does, hardened or not. -/
theorem deriveChildKeyD_ok {E : Env} {G : Type} [AddCommGroup G] (L : PLawful E.curve G) {idx : Nat} {h : Bool}
    {pk k : KeyD} {il : Int} (hp : E.curve.On pk.pub) (hd : E.curve.On pk.deduce)
    (e : deriveChildKeyD E idx h pk = .ok (il, k)) :
    0 < il ∧ il < E.curve.N ∧ E.curve.On k.pub ∧ E.curve.On k.deduce ∧
      L.val k.pub = L.val pk.pub + il • L.base ∧ L.val k.deduce = L.val pk.deduce + il • L.base ∧
      (k.pub.x, k.pub.y) = L.coords (L.val k.pub) ∧
      k.priv = intBytes ((il + (beNat pk.priv : Int)) % E.curve.N) ∧ k.depth = pk.depth + 1 ∧
      pk.depth ≠ 255 ∧ idx < 2 ^ 31 := by
  unfold deriveChildKeyD at e
  split at e
  · cases e
  · next h1 =>
    split at e
    · cases e
    · next h2 =>
      simp only at e
      generalize (if h = true then 0 :: pk.priv else serializeCompressed pk.deduce.x pk.deduce.y) ++
        uint32ToBytes (if h = true then idx ||| 0x80000000 else idx) = data at e
      generalize (if h = true then idx ||| 0x80000000 else idx) = idx' at e
      generalize E.hmac512 pk.chainCode data = ilr at e
      have hnn := Int.emod_nonneg (beNat (ilr.take 32) : Int)
        (show E.curve.N ≠ 0 by have := L.N_pos; omega)
      generalize ((beNat (ilr.take 32) : Nat) : Int) % E.curve.N = ilN at e hnn
      split at e
      · cases e
      · next h3 =>
        split at e
        · cases e
        · next dG hdG =>
          split at e
          · cases e
          · split at e
            · cases e
            · next child hc =>
              split at e
              · cases e
              · next ded hded =>
                simp only [Res.ok.injEq, Prod.mk.injEq] at e
                obtain ⟨rfl, rfl⟩ := e
                obtain ⟨o1, v1, _⟩ := L.base_some hdG
                obtain ⟨o2, v2, c2⟩ := L.add_some hp o1 hc
                obtain ⟨o3, v3, _⟩ := L.add_some hd o1 hded
                push Not at h3
                refine ⟨by omega, h3.1, o2, o3, by rw [v2, v1], by rw [v3, v1], ?_, rfl, rfl, h2, ?_⟩
                · rw [c2, v2]
                · unfold hardenedKeyStart at h1; omega

theorem zsmul_emod {c : Curve} {G : Type} [AddCommGroup G] (L : PLawful c G) (k : Int) :
    (k % c.N) • L.base = k • L.base := by
  conv_rhs => rw [← Int.emod_add_mul_ediv k c.N]
  rw [add_smul, mul_comm, mul_smul, L.N_base, smul_zero, add_zero]

theorem beNat_intBytes_emod' {c : Curve} {G : Type} [AddCommGroup G] (L : PLawful c G) (k : Int) :
    ((beNat (intBytes (k % c.N)) : Nat) : Int) = k % c.N := by
  rw [beNat_intBytes]
  have := Int.emod_nonneg k (show c.N ≠ 0 from by have := L.N_pos; omega)
  omega

/-- The loop over any path: one total tweak is added to everything. -/
theorem derivePrivLoopD_ok {E : Env} {G : Type} [AddCommGroup G] (L : PLawful E.curve G) :
    ∀ (parts : List Bytes) (pk k : KeyD), E.curve.On pk.pub → E.curve.On pk.deduce →
      derivePrivLoopD E pk parts = .ok k →
      ∃ t : Int, E.curve.On k.pub ∧ E.curve.On k.deduce ∧ L.val k.pub = L.val pk.pub + t • L.base ∧
        L.val k.deduce = L.val pk.deduce + t • L.base ∧
        (beNat k.priv : Int) % E.curve.N = ((beNat pk.priv : Int) + t) % E.curve.N ∧
        k.depth = pk.depth + parts.length ∧
        (parts ≠ [] → (k.pub.x, k.pub.y) = L.coords (L.val k.pub) ∧ (beNat k.priv : Int) < E.curve.N ∧
          k.priv = intBytes (beNat k.priv : Int))
  | [], pk, k, hp, hd, e => by
    cases e
    exact ⟨0, hp, hd, by simp, by simp, by simp, rfl, by simp⟩
  | part :: t, pk, k, hp, hd, e => by
    unfold derivePrivLoopD at e
    split at e
    · cases e
    · cases e
    · next i b hpart =>
      split at e
      · cases e
      · cases e
      · next il child hstep =>
        obtain ⟨s1, s2, s3, s4, s5, s6, s7, s8, s9, _, _⟩ := deriveChildKeyD_ok L hp hd hstep
        obtain ⟨t', r1, r2, r3, r4, r5, r6, r7⟩ := derivePrivLoopD_ok L t child k s3 s4 e
        have hb : (beNat child.priv : Int) = (il + (beNat pk.priv : Int)) % E.curve.N := by
          rw [s8, beNat_intBytes_emod' L]
        refine ⟨il + t', r1, r2, ?_, ?_, ?_, ?_, ?_⟩
        · rw [r3, s5, add_smul, add_assoc]
        · rw [r4, s6, add_smul, add_assoc]
        · rw [r5, hb, Int.emod_add_emod]; congr 1; ring
        · rw [r6, s9, List.length_cons]; omega
        · intro _
          by_cases ht : t = []
          · subst ht
            cases e
            refine ⟨s7, ?_, ?_⟩
            · rw [hb]; exact Int.emod_lt_of_pos _ L.N_pos
            · rw [hb]; exact s8
          · exact r7 ht

theorem newPoint_some {c : Curve} {o : Option ECPoint} {p : ECPoint} (h : newPoint c o = some p) :
    o = some p ∧ c.On p := by
  cases o with
  | none => cases h
  | some q =>
    obtain ⟨rfl, h2⟩ := PLawful.new_some h
    exact ⟨rfl, h2⟩

theorem newPoint_on {c : Curve} {p : ECPoint} (h : c.On p) : newPoint c (some p) = some p := by
  unfold newPoint ECPoint.new
  simp only
  rw [if_pos (show c.isOnCurve p.x p.y = true from h)]

/-- One step of the secp256k1 variant. -/
theorem deriveChildKey_ok {E : Env} {sN : Int} {G : Type} [AddCommGroup G] (L : PLawful E.curve G) {idx : Nat} {h : Bool}
    {pk k : Key} {il : Int} (e : deriveChildKey E sN idx h pk = .ok (il, k)) :
    ∃ p d p' d' : ECPoint, pk.pub = some p ∧ pk.deduce = some d ∧ k.pub = some p' ∧ k.deduce = some d' ∧
      E.curve.On p ∧ E.curve.On d ∧ E.curve.On p' ∧ E.curve.On d' ∧
      0 < il ∧ il < E.curve.N ∧ L.val p' = L.val p + il • L.base ∧ L.val d' = L.val d + il • L.base ∧
      (p'.x, p'.y) = L.coords (L.val p') ∧
      k.priv = intBytes ((il + (beNat pk.priv : Int)) % sN) ∧ k.depth = pk.depth + 1 ∧
      pk.depth ≠ 255 ∧ idx < 2 ^ 31 := by
  unfold deriveChildKey at e
  split at e
  · cases e
  · next h1 =>
    split at e
    · cases e
    · next h2 =>
      split at e
      · cases e
      · next p hp =>
        split at e
        · cases e
        · next d hd =>
          obtain ⟨hp1, hp2⟩ := newPoint_some hp
          obtain ⟨hd1, hd2⟩ := newPoint_some hd
          simp only at e
          generalize (if h = true then 0 :: pk.priv else serializeCompressed d.x d.y) ++
            uint32ToBytes (if h = true then idx ||| 0x80000000 else idx) = data at e
          generalize (if h = true then idx ||| 0x80000000 else idx) = idx' at e
          generalize E.hmac512 pk.chainCode data = ilr at e
          have hnn : (0 : Int) ≤ ((beNat (ilr.take 32) : Nat) : Int) := Int.natCast_nonneg _
          generalize ((beNat (ilr.take 32) : Nat) : Int) = ilN at e hnn
          split at e
          · cases e
          · next h3 =>
            split at e
            · cases e
            · next dG hdG =>
              split at e
              · cases e
              · split at e
                · cases e
                · next child hc =>
                  split at e
                  · cases e
                  · next ded hded =>
                    simp only [Res.ok.injEq, Prod.mk.injEq] at e
                    obtain ⟨rfl, rfl⟩ := e
                    obtain ⟨o1, v1, _⟩ := L.base_some hdG
                    obtain ⟨o2, v2, c2⟩ := L.add_some hp2 o1 hc
                    obtain ⟨o3, v3, _⟩ := L.add_some hd2 o1 hded
                    push Not at h3
                    refine ⟨p, d, child, ded, hp1, hd1, rfl, rfl, hp2, hd2, o2, o3, by omega, h3.1,
                      by rw [v2, v1], by rw [v3, v1], ?_, rfl, rfl, h2, ?_⟩
                    · rw [c2, v2]
                    · unfold hardenedKeyStart at h1; omega

/-- The loop of the secp256k1 variant over any path. -/
theorem derivePrivLoop_ok {E : Env} {sN : Int} {G : Type} [AddCommGroup G] (L : PLawful E.curve G) (hN : sN = E.curve.N) :
    ∀ (parts : List Bytes) (pk k : Key) (p : ECPoint), pk.pub = some p →
      derivePrivLoop E sN pk parts = .ok k → parts ≠ [] →
      ∃ (t : Int) (p' : ECPoint), E.curve.On p ∧ k.pub = some p' ∧ E.curve.On p' ∧
        L.val p' = L.val p + t • L.base ∧ (p'.x, p'.y) = L.coords (L.val p') ∧
        (beNat k.priv : Int) = ((beNat pk.priv : Int) + t) % E.curve.N ∧
        k.priv = intBytes (beNat k.priv : Int) ∧ k.depth = pk.depth + parts.length
  | [], pk, k, p, hp, e, hne => absurd rfl hne
  | part :: t, pk, k, p, hp, e, _ => by
    unfold derivePrivLoop at e
    split at e
    · cases e
    · cases e
    · next i b hpart =>
      split at e
      · cases e
      · cases e
      · next il child hstep =>
        obtain ⟨p0, d0, p1, d1, e1, e2, e3, e4, o1, o2, o3, o4, s1, s2, s5, s6, s7, s8, s9, _, _⟩ := deriveChildKey_ok L hstep
        rw [hp] at e1; cases e1
        have hb : (beNat child.priv : Int) = (il + (beNat pk.priv : Int)) % E.curve.N := by
          rw [s8, hN, beNat_intBytes_emod' L]
        by_cases ht : t = []
        · subst ht
          cases e
          refine ⟨il, p1, o1, e3, o3, s5, s7, ?_, ?_, ?_⟩
          · rw [hb, add_comm]
          · rw [hb, ← hN]; exact s8
          · rw [s9]; rfl
        · obtain ⟨t', p', r1, r2, r3, r4, r5, r6, r7, r8⟩ := derivePrivLoop_ok L hN t child k p1 e3 e ht
          refine ⟨il + t', p', o1, r2, r3, ?_, r5, ?_, r7, ?_⟩
          · rw [r4, s5, add_smul, add_assoc]
          · rw [r6, hb, Int.emod_add_emod]; congr 1; ring
          · rw [r8, s9, List.length_cons]; omega

theorem padKey_intBytes {z : Int} (h0 : 0 ≤ z) (h : z < 2 ^ 256) :
    (padKey (intBytes z)).length = 32 ∧ (beNat (padKey (intBytes z)) : Int) = z := by
  have hl : (intBytes z).length ≤ 32 := natBE_length_le _ 32 (by norm_num; omega)
  unfold padKey
  split
  · constructor
    · simp; omega
    · rw [beNat_zeros_append, beNat_intBytes]; omega
  · constructor
    · omega
    · rw [beNat_intBytes]; omega

end Ckd
end Tss
