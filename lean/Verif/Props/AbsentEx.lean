import Verif.Props.Absent
/-! C114 on the two-party session of `toyHonestK`: one party alone. -/
namespace Tss.Onsign
open Tss Text Wire RangeProofs

/-! ### the children of a session whose HMAC always has the left half 1 -/

theorem loop_adds (E : Ckd.Env) (c : Int) (hc : ∀ k d, (beNat ((E.hmac512 k d).take 32) : Int) % E.curve.N = c)
    (hN : 0 < E.curve.N) (parts : List Bytes) : ∀ (pk k : Ckd.KeyD), Ckd.derivePrivLoopD E pk parts = .ok k →
    (beNat k.priv : Int) % E.curve.N = ((beNat pk.priv : Int) + parts.length * c) % E.curve.N := by
  induction parts with
  | nil => intro pk k h; unfold Ckd.derivePrivLoopD at h; injection h with h; subst h; simp
  | cons p t ih =>
    intro pk k h
    unfold Ckd.derivePrivLoopD at h
    split at h
    · cases h
    · cases h
    split at h
    · cases h
    · cases h
    next idx harden _ il child hs =>
    rw [ih child k h]
    unfold Ckd.deriveChildKeyD at hs
    simp only [hc] at hs
    split at hs
    · cases hs
    split at hs
    · cases hs
    split at hs
    · cases hs
    split at hs
    · cases hs
    split at hs
    · cases hs
    split at hs
    · cases hs
    split at hs
    · cases hs
    injection hs with hs
    injection hs with _ hs
    rw [← hs]
    simp only [List.length_cons, beNat_intBytes_nonneg (Int.emod_nonneg _ hN.ne')]
    push_cast
    rw [Int.emod_add_emod]
    congr 1
    ring

theorem padKey_value (b : Bytes) : beNat (Ckd.padKey b) = beNat b := by
  unfold Ckd.padKey
  split
  · rw [beNat_zeros_append]
  · rfl

theorem child_adds (E : Ckd.Env) (c : Int) (hc : ∀ k d, (beNat ((E.hmac512 k d).take 32) : Int) % E.curve.N = c)
    (hN : 0 < E.curve.N) (x : Int) (h0 : 0 ≤ x) (h1 : x < 2 ^ 256) (pub grp : ECPoint) (code path : Bytes) (q : Bytes × Bytes)
    (h : Ckd.deriveEddsaChildPrivKey E x pub grp code path = .ok q) :
    (beNat q.1 : Int) % E.curve.N = (x + (split 47 path).length * c) % E.curve.N := by
  have fb : fillBytes 32 x = some (beFixed 32 x.natAbs) := by
    unfold fillBytes; rw [if_pos (by norm_num; omega)]
  unfold Ckd.deriveEddsaChildPrivKey Ckd.derivePrivateKeyForPathD at h
  rw [fb] at h
  simp only [Ckd.newExtendKeyD, Ckd.pathParts, gt_iff_lt, lt_irrefl, if_false] at h
  split at h
  · cases h
  · cases h
  next ext hl =>
  split at h
  · cases h
  injection h with h
  rw [← h]
  simp only
  rw [padKey_value, loop_adds E c hc hN _ _ _ hl]
  simp only
  rw [beNat_beFixed, Nat.mod_eq_of_lt (by norm_num; omega)]
  congr 2
  omega

/-- In every view of the toy session as an honest one, party `i`'s derived share is its share plus 5 modulo the group order:
five steps of the path, each adding 1. -/
theorem toy_child (sha512 : Bytes → Bytes) (k : Nat → Int) (H : Honest (toyEnvSha sha512) (toySessionK k)) (i : Nat)
    (hi : i < 2) : H.d i = toyData i ∧ (beNat (H.child i) : Int) % Ed.curve.N = (toyX0 i + 5) % Ed.curve.N := by
  have hd : H.d i = toyData i := by
    obtain ⟨b, b1, b2⟩ := H.keyData i hi
    have : b64Decode (b64Encode (List.replicate i 0)) = some b := b1
    rw [b64_round_trip] at this
    injection this with this
    subst this
    have b3 : some (toyData (List.replicate i (0 : UInt8)).length) = some (H.d i) := b2
    injection b3 with b3
    rw [← b3, List.length_replicate]
  refine ⟨hd, ?_⟩
  obtain ⟨p1, p2, p3⟩ := H.priv i hi
  rw [hd] at p1
  have p4 : some (toyX0 i) = some (H.x0 i) := p1
  injection p4 with p4
  have hp : toyPath = H.path := (H.count i hi).2.2.2
  have := child_adds (toyEnvSha sha512).ckd 1 (fun _ _ => by
    show (beNat ((List.replicate 31 0 ++ [1] ++ List.replicate 32 1 : Bytes).take 32) : Int) % Ed.curve.N = 1
    decide +kernel) (by show 0 < Ed.curve.N; decide +kernel) _ p2 p3 _ _ _ _ _ (H.derive i hi)
  rw [← p4, ← hp, show (split 47 toyPath).length = 5 by decide +kernel] at this
  exact this

/-- Party 0's id is 5 and party 1's derived share is 2 + 5. -/
theorem toy_facts (sha512 : Bytes → Bytes) (k : Nat → Int) (H : Honest (toyEnvSha sha512) (toySessionK k)) :
    H.kv 0 = 5 ∧ (beNat (H.child 1) : Int) % Ed.curve.N = 7 % Ed.curve.N := by
  constructor
  · have h := H.ks 0 (by show 0 < 2; omega)
    rw [(toy_child _ _ H 0 (by omega)).1] at h
    have h2 : [some (5 : Int), some 17] = [some (H.kv 0), some (H.kv 1)] := h
    simp only [List.cons.injEq, Option.some.injEq] at h2
    exact h2.1.symm
  · exact (toy_child _ _ H 1 (by omega)).2

theorem steps_run {e : Env} {S : Session} {a b : Net} (h : Steps e S a b) : Run e S a → Run e S b := by
  induction h with
  | refl => exact id
  | head h _ ih => exact fun ha => ih (Run.step ha h)

/-- C114: party 0 of the toy session alone.  Its session satisfies the hypotheses, what is missing is party 1's share, and
with a hash whose challenge is 1 no run gives it a signature. -/
theorem C114_alone (k : Nat → Int) (hk : ∀ i, 0 ≤ k i ∧ k i < 15) :
    ∃ H : Signers (toyEnvSha fun _ => [1]) (spec.onlyFirst (toySessionK k) 1 [ascii "5"]),
      (spec.absent H : Int) % Ed.curve.N = 7 ∧ spec.sessionChallenge H = 1 ∧
      (∀ s, Run (toyEnvSha fun _ => [1]) (spec.onlyFirst (toySessionK k) 1 [ascii "5"]) s → s.final 0 = none) ∧
      ∃ s, Run (toyEnvSha fun _ => [1]) (spec.onlyFirst (toySessionK k) 1 [ascii "5"]) s ∧ s.stage 0 = 5 := by
  obtain ⟨H⟩ := toyHonestK (fun _ => [1]) k hk
  obtain ⟨f1, f2⟩ := toy_facts _ _ H
  obtain ⟨H', g1, g2, g3⟩ := C114_part_of_session H 1 (by show 1 ≤ 2; omega) [ascii "5"]
    ((Keygen.buildIds [ascii "5"] 0 1).getD []) (by decide +kernel) (by
      have hl : (PartyID.SortPartyIDs ((Keygen.buildIds [ascii "5"] 0 1).getD []) none).map (·.key) =
          [some (intBytes 5)] := by decide +kernel
      intro j id hid
      have h1 : ((PartyID.SortPartyIDs ((Keygen.buildIds [ascii "5"] 0 1).getD []) none).map (·.key))[j]? = some id.key := by
        rw [List.getElem?_map, hid]; rfl
      rw [hl] at h1
      match j, h1 with
      | 0, h1 => rw [f1]; exact (by simpa using h1.symm)
      | j + 1, h1 => simp at h1)
  have ha : (spec.absent H' : Int) % Ed.curve.N = 7 := by
    have : spec.absent H' = beNat (H.child 1) := by
      unfold spec.absent
      rw [g1, g3]
      show (((List.range 2).drop 1).map fun j => beNat (H.child j)).sum = _
      simp [List.range_succ]
    rw [this, f2]
    decide +kernel
  have hch : spec.sessionChallenge H' = 1 := by
    unfold spec.sessionChallenge spec.challenge
    show leNat [1] % Ed.ord = 1
    decide +kernel
  have hne : spec.sessionChallenge H' * spec.absent H' % Ed.ord ≠ 0 := by
    rw [hch, one_mul]
    intro h0
    have h1 : ((spec.absent H' % Ed.ord : Nat) : Int) = 7 := by rw [Int.natCast_emod]; exact ha
    rw [h0] at h1
    simp at h1
  refine ⟨H', ha, hch, fun s hs => C114_nothing_released H' hne s hs 0 (by show 0 < 1; omega), ?_⟩
  obtain ⟨s, h1, h2⟩ := C114_reaches_last H' _ (Run.init fun _ => none)
  refine ⟨s, ?_, h2 0 (by show 0 < 1; omega)⟩
  exact steps_run h1 (Run.init _)

/-- C114: party 0 of the toy session asks for a session of party 1 alone: crash. -/
theorem C114_other_alone (k : Nat → Int) (hk : ∀ i, 0 ≤ k i ∧ k i < 15) (sha512 : Bytes → Bytes) (r : Reg) (key : Bytes) :
    NewLocalParty (toyEnvSha sha512) r key { (toySessionK k).args 0 with
      partyCount := 1
      pIDs := [ascii "17"] } = (.panic, r) := by
  obtain ⟨H⟩ := toyHonestK sha512 k hk
  refine C114_part_crashes H 0 (by show 0 < 2; omega) 1 (by omega) [ascii "17"]
    ((Keygen.buildIds [ascii "17"] 0 1).getD []) (by decide +kernel) (fun _ => 1) ?_ ⟨0, by omega, by omega⟩ r key
  have h17 : H.kv 1 = 17 := by
    have h := H.ks 0 (by show 0 < 2; omega)
    obtain ⟨b, b1, b2⟩ := H.keyData 0 (by show 0 < 2; omega)
    have b3 : some (toyData b.length) = some (H.d 0) := b2
    injection b3 with b3
    rw [← b3] at h
    have h2 : [some (5 : Int), some 17] = [some (H.kv 0), some (H.kv 1)] := h
    simp only [List.cons.injEq, Option.some.injEq] at h2
    exact h2.2.1.symm
  have hl : (PartyID.SortPartyIDs ((Keygen.buildIds [ascii "17"] 0 1).getD []) none).map (·.key) =
      [some (intBytes 17)] := by decide +kernel
  intro j id hid
  have h1 : ((PartyID.SortPartyIDs ((Keygen.buildIds [ascii "17"] 0 1).getD []) none).map (·.key))[j]? = some id.key := by
    rw [List.getElem?_map, hid]; rfl
  rw [hl] at h1
  refine ⟨by show 1 < 2; omega, ?_⟩
  match j, h1 with
  | 0, h1 => rw [h17]; exact (by simpa using h1.symm)
  | j + 1, h1 => simp at h1

end Tss.Onsign
