import Verif.Props.CkdBip32
import Verif.Props.Ckd
import Verif.Props.NonceReuse
import Verif.Props.RootResidue
/-
C120: one derived share gives the root share and the shares of all other paths.
-/
namespace Tss.Ckd
open Tss Text

/-! ### Specification -/

/-- What the components of a path add to a private key, computed from public data only: the key of HMAC-SHA512 (`hmac`), the
group key `D` and the chain code. Every component `i` adds the first half of HMAC(chain code, serP(D) ‖ ser32(i)) modulo the order
of Ed25519; the group key moves by that multiple of the base point and the second half is the next chain code. -/
noncomputable def spec.pathTweak (hmac : Bytes → Bytes → Bytes) : ECPoint → Bytes → List Nat → Int
  | _, _, [] => 0
  | D, code, i :: t =>
    let I := hmac code (spec.serP D ++ spec.ser32 i)
    let il : Nat := beNat (I.take 32) % Ed.ord
    (il : Int) + spec.pathTweak hmac
      ⟨(Ed.coords (Ed.toPt D.x D.y + il • Ed.B)).1, (Ed.coords (Ed.toPt D.x D.y + il • Ed.B)).2⟩ (I.drop 32) t

/-- The numbers that a path without hardened components stands for: each component, separated by `/`, is a decimal integer of which
the low 32 bits count. -/
def spec.PathIs (path : Bytes) (is : List Nat) : Prop := List.Forall₂ (fun part i => spec.PrivComponent part i false) (split 47 path) is

/-! ### Proof -/

theorem deduce_coords {E : Env} {G : Type} [AddCommGroup G] (L : PLawful E.curve G) {idx : Nat} {h : Bool}
    {pk k : KeyD} {il : Int} (hd : E.curve.On pk.deduce) (e : deriveChildKeyD E idx h pk = .ok (il, k)) :
    (k.deduce.x, k.deduce.y) = L.coords (L.val pk.deduce + il • L.base) := by
  unfold deriveChildKeyD at e
  split at e
  · cases e
  · split at e
    · cases e
    · simp only at e
      generalize (if h = true then 0 :: pk.priv else serializeCompressed pk.deduce.x pk.deduce.y) ++
        uint32ToBytes (if h = true then idx ||| 0x80000000 else idx) = data at e
      generalize (if h = true then idx ||| 0x80000000 else idx) = idx' at e
      generalize E.hmac512 pk.chainCode data = ilr at e
      generalize ((beNat (ilr.take 32) : Nat) : Int) % E.curve.N = ilN at e
      split at e
      · cases e
      · split at e
        · cases e
        · next dG hdG =>
          split at e
          · cases e
          · split at e
            · cases e
            · split at e
              · cases e
              · next ded hded =>
                simp only [Res.ok.injEq, Prod.mk.injEq] at e
                obtain ⟨rfl, rfl⟩ := e
                obtain ⟨o1, v1, _⟩ := L.base_some hdG
                obtain ⟨o3, v3, c3⟩ := L.add_some hd o1 hded
                rw [c3, v1]

theorem coords_range (g : Ed.Point) : 0 ≤ (Ed.coords g).1 ∧ (Ed.coords g).1 < 2 ^ 256 := by
  have h : (Ed.coords g).1 = ((g.x.val : Nat) : Int) := rfl
  have h1 : g.x.val < Ed.P := ZMod.val_lt _
  have h2 : Ed.P < 2 ^ 256 := by decide +kernel
  rw [h]
  exact ⟨by omega, by exact_mod_cast lt_trans h1 h2⟩

theorem loop_tweak {E : Env} (hE : E.curve = Ed.curve) : ∀ (parts : List Bytes) (pk k : KeyD), Ed.curve.On pk.pub → Ed.curve.On pk.deduce →
    0 ≤ pk.deduce.x → pk.deduce.x < 2 ^ 256 → (∀ part ∈ parts, part.getLast? ≠ some 39) → derivePrivLoopD E pk parts = .ok k →
    ∃ is, List.Forall₂ (fun part i => spec.PrivComponent part i false) parts is ∧
      (beNat k.priv : Int) ≡ beNat pk.priv + spec.pathTweak E.hmac512 pk.deduce pk.chainCode is [ZMOD Ed.ord]
  | [], pk, k, _, _, _, _, _, h => by
    unfold derivePrivLoopD at h
    cases h
    exact ⟨[], .nil, by unfold spec.pathTweak; simp⟩
  | part :: t, pk, k, hp, hd, h0, h1, hn, h => by
    unfold derivePrivLoopD at h
    cases hq : parsePart part with
    | panic => rw [hq] at h; cases h
    | err e => rw [hq] at h; cases h
    | ok v =>
      obtain ⟨i, hard⟩ := v
      rw [hq] at h
      simp only at h
      have hc := (C48_component _ _ _).mp hq
      have hf : hard = false := by
        obtain ⟨body, z, ⟨h, -⟩ | ⟨-, h⟩, -⟩ := hc
        · exact h
        · exact absurd (by rw [h]; simp) (hn part (by simp))
      subst hf
      cases hs : deriveChildKeyD E i false pk with
      | panic => rw [hs] at h; cases h
      | err e => rw [hs] at h; cases h
      | ok v =>
        obtain ⟨il, c⟩ := v
        rw [hs] at h
        simp only at h
        obtain ⟨curve, h160, hmac⟩ := E
        subst hE
        obtain ⟨a1, a2, a3, a4, a5, a6, a7, a8, -⟩ := deriveChildKeyD_ok Ed.lawful.toPLawful hp hd hs
        have hco := deduce_coords Ed.lawful.toPLawful hd hs
        obtain ⟨-, -, b1, -, b2, -, -, b3, -⟩ := C70_eddsa_step Ed.lawful.toPLawful hp hd h0 h1 hs
        have hN : Ed.curve.N = ((Ed.ord : Nat) : Int) := rfl
        have hdat : spec.ckdData false pk.priv pk.deduce i = spec.serP pk.deduce ++ spec.ser32 i := rfl
        rw [hdat] at b1 b2
        have hcd : c.deduce = ⟨(Ed.coords (Ed.toPt pk.deduce.x pk.deduce.y + il • Ed.B)).1,
            (Ed.coords (Ed.toPt pk.deduce.x pk.deduce.y + il • Ed.B)).2⟩ := by
          have e1 : (c.deduce.x, c.deduce.y) = Ed.coords (Ed.toPt pk.deduce.x pk.deduce.y + il • Ed.B) := hco
          rw [← e1]
        have hr := coords_range (Ed.toPt pk.deduce.x pk.deduce.y + il • Ed.B)
        obtain ⟨is, f, g⟩ := loop_tweak (E := ⟨Ed.curve, h160, hmac⟩) rfl t c k a3 a4 (by rw [hcd]; exact hr.1) (by rw [hcd]; exact hr.2)
          (fun p hm => hn p (by simp [hm])) h
        refine ⟨i :: is, .cons hc f, g.trans ?_⟩
        have e2 : il = ((beNat ((hmac pk.chainCode (spec.serP pk.deduce ++ spec.ser32 i)).take 32) % Ed.ord : Nat) : Int) := by
          rw [b1, hN]; push_cast; rfl
        rw [spec.pathTweak]
        rw [← natCast_zsmul, ← e2, ← hcd, ← b2, b3, beNat_intBytes_emod' Ed.lawful.toPLawful]
        have e3 : ((beNat pk.priv : Int) + il) % Ed.curve.N ≡ (beNat pk.priv : Int) + il [ZMOD Ed.ord] := Int.mod_modEq _ _
        have := e3.add_right (spec.pathTweak hmac c.deduce c.chainCode is)
        rw [add_assoc] at this
        exact this

theorem component_unique {part : Bytes} {i i' : Nat} (h : spec.PrivComponent part i false) (h' : spec.PrivComponent part i' false) : i = i' := by
  have a := (C48_component _ _ _).mpr h
  rw [(C48_component _ _ _).mpr h', Res.ok.injEq, Prod.mk.injEq] at a
  exact a.1.symm

/-- C120. A path stands for one list of numbers. -/
theorem C120_path_unique {path : Bytes} {is is' : List Nat} (h : spec.PathIs path is) (h' : spec.PathIs path is') : is = is' := by
  unfold spec.PathIs at h h'
  generalize split 47 path = l at h h'
  induction h generalizing is' with
  | nil => cases h'; rfl
  | cons a _ ih =>
    cases h' with
    | cons b c => rw [component_unique a b, ih c]

/-- C120. What a derivation adds to a share does not depend on the share: the child of `priv` is `priv` plus the tweak of the path modulo
the group order, and the tweak is computed from the group key, the chain code and the path. -/
theorem C120_child {E : Env} (hE : E.curve = Ed.curve) {priv : Int} (h0 : 0 ≤ priv) {pub deduce : ECPoint} (hp : Ed.curve.On pub)
    (hd : Ed.curve.On deduce) (hx0 : 0 ≤ deduce.x) (hx1 : deduce.x < 2 ^ 256) {code path k kb : Bytes} (hn : spec.NonHardened path)
    (h : deriveEddsaChildPrivKey E priv pub deduce code path = .ok (k, kb)) :
    ∃ is, spec.PathIs path is ∧ (beNat k : Int) = (priv + spec.pathTweak E.hmac512 deduce code is) % Ed.ord := by
  obtain ⟨curve, h160, hmac⟩ := E
  subst hE
  unfold deriveEddsaChildPrivKey at h
  cases hf : fillBytes 32 priv with
  | none => rw [hf] at h; cases h
  | some b =>
    rw [hf] at h
    simp only at h
    have hb : (beNat b : Int) = priv := by
      unfold fillBytes at hf
      split at hf
      · next hlt =>
        cases hf
        rw [beNat_beFixed, Nat.mod_eq_of_lt (by norm_num at hlt ⊢; omega)]; omega
      · cases hf
    have hN : Ed.curve.N ≤ 2 ^ 256 := by decide +kernel
    obtain ⟨t, Q, l, e1, -⟩ := (C47_path_general (E := ⟨Ed.curve, h160, hmac⟩) Ed.lawful.toPLawful hN
      (pk := newExtendKeyD ⟨Ed.curve, h160, hmac⟩ b pub deduce 0 0 code) rfl hp hd path).1 k kb h
    unfold derivePrivateKeyForPathD at h
    rw [show pathParts (newExtendKeyD ⟨Ed.curve, h160, hmac⟩ b pub deduce 0 0 code).depth path = some (split 47 path) from rfl] at h
    simp only at h
    cases hl : derivePrivLoopD ⟨Ed.curve, h160, hmac⟩ (newExtendKeyD ⟨Ed.curve, h160, hmac⟩ b pub deduce 0 0 code) (split 47 path) with
    | panic => rw [hl] at h; cases h
    | err e => rw [hl] at h; cases h
    | ok ext =>
      rw [hl] at h
      simp only at h
      obtain ⟨is, f, g⟩ := loop_tweak (E := ⟨Ed.curve, h160, hmac⟩) rfl (split 47 path)
        (newExtendKeyD ⟨Ed.curve, h160, hmac⟩ b pub deduce 0 0 code) ext hp hd hx0 hx1 hn hl
      refine ⟨is, f, ?_⟩
      split at h
      · cases h
      · simp only [Res.ok.injEq, Prod.mk.injEq] at h
        have hk : beNat k = beNat ext.priv := by
          rw [← h.1]
          unfold padKey
          split
          · rw [beNat_zeros_append]
          · rfl
        have hr : (beNat k : Int) = (beNat k : Int) % ((Ed.ord : Nat) : Int) := by
          rw [e1]
          exact (Int.emod_emod _ _).symm
        rw [hr, hk]
        have g' : (beNat ext.priv : Int) ≡ beNat b + spec.pathTweak hmac deduce code is [ZMOD Ed.ord] := g
        rw [hb] at g'
        exact g'

/-- C120. One derived share gives the root share (modulo the group order) and the shares of all other paths: subtract the tweak of the one
path, add that of the other. -/
theorem C120_one_share_gives_all {E : Env} (hE : E.curve = Ed.curve) {priv : Int} (h0 : 0 ≤ priv) {pub deduce : ECPoint} (hp : Ed.curve.On pub)
    (hd : Ed.curve.On deduce) (hx0 : 0 ≤ deduce.x) (hx1 : deduce.x < 2 ^ 256) {code path path' k kb k' kb' : Bytes} {is is' : List Nat}
    (hn : spec.PathIs path is) (hn' : spec.PathIs path' is')
    (h : deriveEddsaChildPrivKey E priv pub deduce code path = .ok (k, kb))
    (h' : deriveEddsaChildPrivKey E priv pub deduce code path' = .ok (k', kb')) :
    priv ≡ beNat k - spec.pathTweak E.hmac512 deduce code is [ZMOD Ed.ord] ∧
      (beNat k' : Int) = (beNat k - spec.pathTweak E.hmac512 deduce code is + spec.pathTweak E.hmac512 deduce code is') % Ed.ord := by
  have nh : ∀ {path : Bytes} {is : List Nat}, spec.PathIs path is → spec.NonHardened path := by
    intro path is h part hm
    unfold spec.PathIs at h
    generalize split 47 path = l at h hm
    induction h with
    | nil => cases hm
    | cons a _ ih =>
      rcases List.mem_cons.mp hm with rfl | hm
      · obtain ⟨body, z, ⟨-, e⟩ | ⟨e, -⟩, hdec, -⟩ := a
        · rw [e]; exact decimal_last hdec
        · cases e
      · exact ih hm
  obtain ⟨js, p1, p2⟩ := C120_child hE h0 hp hd hx0 hx1 (nh hn) h
  obtain ⟨js', p1', p2'⟩ := C120_child hE h0 hp hd hx0 hx1 (nh hn') h'
  cases C120_path_unique hn p1
  cases C120_path_unique hn' p1'
  have a : priv ≡ beNat k - spec.pathTweak E.hmac512 deduce code is [ZMOD Ed.ord] := by
    have e : (beNat k : Int) ≡ priv + spec.pathTweak E.hmac512 deduce code is [ZMOD Ed.ord] := by
      rw [p2]; exact Int.mod_modEq _ _
    have := (e.sub_right (spec.pathTweak E.hmac512 deduce code is)).symm
    rwa [add_sub_cancel_right] at this
  refine ⟨a, ?_⟩
  rw [p2']
  exact a.add_right _

end Tss.Ckd

namespace Tss.Onsign
open Tss Text Wire

/-- C120. The share a signing party holds: the stored share plus the tweak of the path. -/
theorem C120_signer {e : Env} {r r' : Reg} {key : Bytes} {a : NewArgs} (h : NewLocalParty e r key a = (.ok (), r')) {b : Bytes}
    {d : Keygen.SaveData} {x code : Int} {A : ECPoint} (hb : b64Decode a.keyData = some b) (hd : e.jsonDec b = some d)
    (hx : d.privXi = some x) (hx0 : 0 ≤ x) (hc : d.chainCodes[a.partyIndex.toNat]? = some (some code)) (hA : d.eddsaPub = some A)
    (hon : Ed.curve.On A) (hA0 : 0 ≤ A.x) (hA1 : A.x < 2 ^ 256)
    (hpub : ∀ X, d.pubXj[a.partyIndex.toNat]? = some (some X) → Ed.curve.On X) :
    ∃ (is : List Nat) (p : Party), Ckd.spec.PathIs a.path is ∧ r' key = some p ∧
      p.keys.privXi = some ((x + Ckd.spec.pathTweak e.hmac512 A (intBytes code) is) % Ed.ord) := by
  have hn : Ckd.spec.NonHardened a.path := by
    by_contra hn
    exact C113_hardened e r key a hn (by rw [h])
  obtain ⟨u, kb, d', m, p, idx, code', x', pub, deduce, child, kb', h1, h2, h3, h4, h5, h6, h7, -, -, -, -, -, -, -, g1, g2, g3, g4, g5, g6, -⟩ :=
    C50_created h
  cases hb.symm.trans h2
  cases hd.symm.trans h3
  have hi : a.partyIndex.toNat = idx := by omega
  rw [hi] at hc hpub
  cases hc.symm.trans g1
  cases hx.symm.trans g2
  cases hA.symm.trans g4
  obtain ⟨is, q1, q2⟩ := Ckd.C120_child (E := e.ckd) rfl hx0 (hpub pub g3) hon hA0 hA1 hn g5
  refine ⟨is, p, q1, by rw [h7, set_same], ?_⟩
  rw [g6, q2]
  rfl

/-- C120. A signer that answers its third round twice, on one path, gives away its share on every path. The two answers determine its stored
share modulo the group order (public tweak subtracted), the share of every party ever created from the same key data, on whatever path and for
whatever message, and - since only the residue matters - key data from which exactly the same signers are made. -/
theorem C120_two_answers_give_every_path {e : Env} {zs zs' : Nat → Int} {r0 r r1 r2 : Reg} {key w1 w2 : Bytes} {a : NewArgs} {p : Party} {k : Int}
    (h : NewLocalParty e r0 key a = (.ok (), r)) {b : Bytes} {d : Keygen.SaveData} {x code : Int} {D : ECPoint}
    (hb : b64Decode a.keyData = some b) (hd : e.jsonDec b = some d) (hx : d.privXi = some x) (hx0 : 0 ≤ x ∧ x < 2 ^ 256)
    (hc : d.chainCodes[a.partyIndex.toNat]? = some (some code)) (hD : d.eddsaPub = some D)
    (hon : Ed.curve.On D) (hD0 : 0 ≤ D.x) (hD1 : D.x < 2 ^ 256)
    (hpub : ∀ X, d.pubXj[a.partyIndex.toNat]? = some (some X) → Ed.curve.On X)
    (ops0 : List Op) (hops0 : ∀ op ∈ ops0, op.key = key → op.isLifecycle = false)
    (hp : runOps e ops0 r key = some p) (hn : p.k = some k) (hn0 : 0 ≤ k ∧ k < 2 ^ 256)
    (h1 : OnsignRound3Exec e zs (runOps e ops0 r) key = (.ok w1, r1)) (ops : List Op)
    (hops : ∀ op ∈ ops, op.key = key → op.renews = false)
    (h2 : OnsignRound3Exec e zs' (runOps e ops r1) key = (.ok w2, r2)) :
    ∃ (R1 R2 : Bytes) (A : ECPoint) (p1 p2 : Party) (s1 s2 : Nat) (is : List Nat), p.keys.eddsaPub = some A ∧
      r1 key = some p1 ∧ p1.r = some (leNat R1 : Int) ∧ r2 key = some p2 ∧ p2.r = some (leNat R2 : Int) ∧
      R1.length = 32 ∧ R2.length = 32 ∧
      w1 = wireBytes (.sg3 (intBytes (s1 : Int))) ∧ w2 = wireBytes (.sg3 (intBytes (s2 : Int))) ∧ Ckd.spec.PathIs a.path is ∧
      ∀ c1 c2, c1 = spec.challenge e.sha512 R1 (Ed.ecPointToEncodedBytes A.x A.y) (intBytes p.m) →
        c2 = spec.challenge e.sha512 R2 (Ed.ecPointToEncodedBytes A.x A.y) (intBytes p.m) → c1 ≠ c2 →
        ∀ root : Int, root = (spec.recover s1 s2 c1 c2 - Ckd.spec.pathTweak e.hmac512 D (intBytes code) is) % Ed.ord →
          x ≡ root [ZMOD Ed.ord] ∧
          (∀ (q q' : Reg) (key' : Bytes) (a' : NewArgs) (is' : List Nat), a'.keyData = a.keyData → a'.partyIndex = a.partyIndex →
            Ckd.spec.PathIs a'.path is' → NewLocalParty e q key' a' = (.ok (), q') →
            ∃ p', q' key' = some p' ∧ p'.keys.privXi = some ((root + Ckd.spec.pathTweak e.hmac512 D (intBytes code) is') % Ed.ord)) ∧
          (∀ (q : Reg) (key' keyData' b' : Bytes) (a' : NewArgs), a'.keyData = a.keyData → Ckd.spec.NonHardened a'.path →
            b64Decode keyData' = some b' → e.jsonDec b' = some { d with privXi := some root } →
            NewLocalParty e q key' { a' with keyData := keyData' } = NewLocalParty e q key' a') := by
  have ho : (0 : Int) < ((Ed.ord : Nat) : Int) := by exact_mod_cast Ed.ord_prime.pos
  obtain ⟨is, p0, i1, i2, i3⟩ := C120_signer h hb hd hx hx0.1 hc hD hon hD0 hD1 hpub
  obtain ⟨p', j1, j2⟩ := runOps_same e key ops0 r p0 i2 hops0
  cases hp.symm.trans j1
  have hsh : p.keys.privXi = some ((x + Ckd.spec.pathTweak e.hmac512 D (intBytes code) is) % Ed.ord) := by rw [j2.2.2.2.1, i3]
  obtain ⟨R1, R2, A, p1, p2, s1, s2, g1, g2, g3, g4, g5, g6, g7, g8, g9, g10⟩ := C78_two_answers_reveal_share hp hsh
    ⟨Int.emod_nonneg _ (by omega), Int.emod_lt_of_pos _ ho⟩ hn hn0 h1 ops hops h2
  refine ⟨R1, R2, A, p1, p2, s1, s2, is, g1, g2, g3, g4, g5, g6, g7, g8, g9, i1, ?_⟩
  intro c1 c2 e1 e2 hne root hroot
  have hrec := g10 (by rw [← e1, ← e2]; exact hne)
  rw [← e1, ← e2] at hrec
  have hxr : x ≡ root [ZMOD Ed.ord] := by
    rw [hroot, hrec]
    generalize Ckd.spec.pathTweak e.hmac512 D (intBytes code) is = T
    have q1 : (x + T) % ((Ed.ord : Nat) : Int) ≡ x + T [ZMOD Ed.ord] := Int.mod_modEq _ _
    have q2 := q1.sub_right T
    rw [add_sub_cancel_right] at q2
    exact (q2.symm).trans (Int.mod_modEq _ _).symm
  refine ⟨hxr, ?_, ?_⟩
  · intro q q' key' a' is' ha hi' hpi hq
    rw [← hi'] at hc hpub
    obtain ⟨js, p', k1, k2, k3⟩ := C120_signer hq (by rw [ha]; exact hb) hd hx hx0.1 hc hD hon hD0 hD1 hpub
    cases Ckd.C120_path_unique hpi k1
    refine ⟨p', k2, ?_⟩
    rw [k3]
    exact congrArg some (hxr.add_right _)
  · intro q key' keyData' b' a' ha hnh hkd hjd
    have hr0 : 0 ≤ root := by rw [hroot]; exact Int.emod_nonneg _ (by omega)
    have hr1 : root < ((Ed.ord : Nat) : Int) := by rw [hroot]; exact Int.emod_lt_of_pos _ ho
    have hlt : ((Ed.ord : Nat) : Int) < 2 ^ 256 := by decide +kernel
    have hd' : e.jsonDec b = some { d with privXi := some x } := by
      rw [hd]
      obtain ⟨⟩ := d
      simp only at hx
      rw [hx]
    exact (C113_signing e q key' a' { a' with keyData := keyData' } b b' d x root rfl (by rw [ha]; exact hb) hkd hd' hjd hx0
      ⟨hr0, by omega⟩ hxr hnh).symm

/-- C120. The attack of C78 on an honest signer, which leads it to a second answer by replaying a round to it, gives its stored share: from what it
sent, subtract the tweak of the path. -/
theorem C120_root_share_recovered {e : Env} {S : Session} {rnd' : Nat → Rand1} {draws' : Nat → Nat → RangeProofs.Draws} {zs' : Nat → Nat → Int}
    (H : Honest e S) (H' : Honest e (S.redraw rnd' draws' zs')) (hg0 : 0 ≤ H.grp.x) (hg1 : H.grp.x < 2 ^ 256) (i : Nat) (hi : i < S.n)
    (hrnd : rnd' i = S.rnd i) (s : Net) (hr : Run e S s) (h4 : 4 ≤ s.stage i) {A : Ed.Point} {M : Bytes} {c1 c2 : Nat}
    (hA : A = ((List.range S.n).map fun j => (beNat (H.child j) : Int)).sum • Ed.B) (hM : M = H.msg.dropWhile (· = 0))
    (hc1 : c1 = spec.challenge e.sha512 (Ed.encode (((List.range S.n).map fun j => (S.rnd j).k).sum • Ed.B)) (Ed.encode A) M)
    (hc2 : c2 = spec.challenge e.sha512 (Ed.encode (((List.range S.n).map fun j => (rnd' j).k).sum • Ed.B)) (Ed.encode A) M)
    (hne : c1 ≠ c2) :
    ∃ (s1 s2 : Nat) (ops : List Op) (r' : Reg) (is : List Nat), (∀ op ∈ ops, op.key = S.key i ∧ op.isRetry = true) ∧
      (∀ j, j < S.n → s.sent .three i j = some (wireBytes (.sg3 (intBytes (s1 : Int))))) ∧
      OnsignRound3Exec e (zs' i) (runOps e ops s.reg) (S.key i) = (.ok (wireBytes (.sg3 (intBytes (s2 : Int)))), r') ∧
      Ckd.spec.PathIs H.path is ∧
      H.x0 i ≡ spec.recover s1 s2 c1 c2 - Ckd.spec.pathTweak e.hmac512 H.grp (intBytes (H.code i)) is [ZMOD Ed.ord] := by
  obtain ⟨s1, s2, ops, r', g1, g2, g3, g4⟩ := C78_share_recovered H H' i hi hrnd s hr h4 hA hM hc1 hc2 hne
  obtain ⟨is, q1, q2⟩ := Ckd.C120_child (E := e.ckd) rfl (H.priv i hi).2.1 (Ed.lawful.on_pt _) H.groupOn hg0 hg1 H.soft (H.derive i hi)
  refine ⟨s1, s2, ops, r', is, g1, g2, g3, q1, ?_⟩
  rw [g4, q2]
  change _ ≡ (H.x0 i + Ckd.spec.pathTweak e.hmac512 H.grp (intBytes (H.code i)) is) % _ - _ [ZMOD _]
  generalize Ckd.spec.pathTweak e.hmac512 H.grp (intBytes (H.code i)) is = T
  have q1 : (H.x0 i + T) % ((Ed.ord : Nat) : Int) ≡ H.x0 i + T [ZMOD Ed.ord] := Int.mod_modEq _ _
  have q2 := q1.sub_right T
  rw [add_sub_cancel_right] at q2
  exact q2.symm

end Tss.Onsign
