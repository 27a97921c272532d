import Verif.Model.Musig2
import Verif.Props.Bip340
/-
C96: MuSig2 key aggregation and tweaks.
-/
namespace Tss.Musig2
open Tss Tss.Bip340
open Tss.Secp (E p ord G pt point_cases G_ne_zero)

namespace spec

/-- The second distinct encoding in the list: the first one that is not the head. -/
def second (encs : List Bytes) : Option Bytes := encs.find? (fun e => decide (encs.head? ≠ some e))

/-- The key aggregation coefficient (before reduction): 1 for the second distinct key, else H(KeyAgg coefficient, H(KeyAgg list, all) ‖ key). -/
def coef (th : TH) (encs : List Bytes) (pk : Bytes) : Nat :=
  if second encs = some pk then 1 else beNat (th "KeyAgg coefficient" (th "KeyAgg list" encs.flatten ++ pk))

/-- The order in which the encodings are hashed: as given, or sorted. -/
def Ordered (sort : Bool) (keys : List Pt) (encs : List Bytes) : Prop :=
  encs.Perm (keys.map serializePubKey) ∧ (sort = false → encs = keys.map serializePubKey) ∧ (sort = true → encs.Pairwise (· ≤ ·))

/-- One tweak of a key: on the x-only key (even y) or on the key as it is. -/
def tweaked (Q : Pt) (t : Tweak) : Pt := (if t.xOnly then even Q else Q) + beNat t.tweak • G

/-- The keys after each of the tweaks. -/
def chain : Pt → List Tweak → List Pt
  | _, [] => []
  | Q, t :: ts => tweaked Q t :: chain (tweaked Q t) ts

/-- The key after all the tweaks. -/
def tweakAll (Q : Pt) (ts : List Tweak) : Pt := ts.foldl tweaked Q

end spec

theorem compressed_head (P : Pt) : (compressed P).headD 0 = if oddY P then 3 else 2 := rfl

theorem hasEvenY_eq (P : Pt) : hasEvenY P = !oddY P := by
  unfold hasEvenY; rw [compressed_head]; cases oddY P <;> rfl

theorem parity_eq (P : Pt) : (if ((compressed P).headD 0 == 3) = true then (-1 : Sc) else 1) = sgn P := by
  rw [compressed_head]; unfold sgn; cases oddY P <;> rfl

theorem keyBytesEqual_iff (a b : Pt) : keyBytesEqual a b = true ↔ xb a = xb b := by
  unfold keyBytesEqual; rw [serialize_eq, serialize_eq]; exact beq_iff_eq

theorem second_eq (keys : List Pt) :
    ((secondUniqueKeyIndex keys).bind (keys[·]?)).map serializePubKey = spec.second (keys.map serializePubKey) := by
  unfold secondUniqueKeyIndex spec.second
  cases keys with
  | nil => rfl
  | cons k0 ks =>
    simp only [List.map_cons, List.head?_cons]
    generalize hl : k0 :: ks = l
    have : ∀ l : List Pt, ((l.findIdx? (fun k => !keyBytesEqual k k0)).bind (l[·]?)).map serializePubKey =
        (l.map serializePubKey).find? (fun e => decide (some (serializePubKey k0) ≠ some e)) := by
      intro l
      induction l with
      | nil => rfl
      | cons a l ih =>
        rw [List.findIdx?_cons, List.map_cons, List.find?_cons]
        by_cases h : keyBytesEqual a k0 = true
        · have h' : serializePubKey a = serializePubKey k0 := by
            rw [serialize_eq, serialize_eq]; exact (keyBytesEqual_iff _ _).1 h
          rw [h, h']
          simp only [Bool.not_true, Bool.false_eq_true, if_false, ne_eq, not_true_eq_false, decide_false]
          rw [← ih]
          cases hf : l.findIdx? (fun k => !keyBytesEqual k k0) <;> simp
        · have h' : serializePubKey k0 ≠ serializePubKey a := by
            rw [serialize_eq, serialize_eq]; exact fun e => h ((keyBytesEqual_iff _ _).2 e.symm)
          simp [h, h']
    have := this l
    rw [← hl] at this ⊢
    exact this

/-- The coefficient of the code is the one of the specification. -/
theorem coefficient_eq (th : TH) (keys : List Pt) (k : Pt) :
    aggregationCoefficient th keys k (keyHashFingerprint th keys) (secondUniqueKeyIndex keys) =
      (spec.coef th (keys.map serializePubKey) (serializePubKey k) : Sc) := by
  unfold aggregationCoefficient spec.coef
  rw [← second_eq]
  cases h : (secondUniqueKeyIndex keys).bind (keys[·]?) with
  | none => simp [setBytes, keyHashFingerprint]
  | some q =>
    simp only [Option.map_some, Option.some.injEq]
    by_cases he : serializePubKey q = serializePubKey k
    · rw [if_pos he, if_pos (by rw [keyBytesEqual_iff, ← serialize_eq, ← serialize_eq]; exact he)]; simp
    · rw [if_neg he, if_neg (by rw [keyBytesEqual_iff, ← serialize_eq, ← serialize_eq]; exact he)]
      rfl

theorem foldl_sum {α : Type} (f : α → Pt) : ∀ (l : List α) (a : Pt), l.foldl (fun acc k => acc + f k) a = a + (l.map f).sum
  | [], a => by simp
  | x :: l, a => by rw [List.foldl_cons, foldl_sum f l, List.map_cons, List.sum_cons, add_assoc]

/-- The coefficient of a key, as used for the list in hashing order. -/
def cf (th : TH) (keys : List Pt) (k : Pt) : Sc := (spec.coef th (keys.map serializePubKey) (serializePubKey k) : Sc)

theorem sumKeys_eq (th : TH) (keys : List Pt) : sumKeys th keys = (keys.map fun k => cf th keys k • k).sum := by
  unfold sumKeys
  simp only
  rw [foldl_sum, zero_add]
  congr 1
  apply List.map_congr_left
  intro k _
  rw [mul_eq, coefficient_eq]
  rfl

theorem maybeSort_perm (sort : Bool) (keys : List Pt) : (maybeSort sort keys).Perm keys := by
  unfold maybeSort
  split
  · exact List.perm_insertionSort _ _
  · exact List.Perm.refl _

instance : Std.Total (fun a b : Pt => (!keyLess b a) = true) := ⟨fun a b => by
  unfold keyLess
  simp only [Bool.not_eq_true', decide_eq_false_iff_not, List.not_lt]
  exact List.le_total _ _⟩

instance : IsTrans Pt (fun a b : Pt => (!keyLess b a) = true) := ⟨fun a b c h1 h2 => by
  unfold keyLess at *
  simp only [Bool.not_eq_true', decide_eq_false_iff_not, List.not_lt] at *
  exact List.le_trans h1 h2⟩

theorem sortKeys_sorted (keys : List Pt) : (sortKeys keys).Pairwise (fun a b => serializePubKey a ≤ serializePubKey b) := by
  have := List.pairwise_insertionSort (fun a b : Pt => (!keyLess b a) = true) keys
  unfold sortKeys
  refine this.imp ?_
  intro a b h
  unfold keyLess at h
  simpa using h

/-- The order used by the code is an order of the specification. -/
theorem ordered_maybeSort (sort : Bool) (keys : List Pt) :
    spec.Ordered sort keys ((maybeSort sort keys).map serializePubKey) := by
  refine ⟨(maybeSort_perm sort keys).map _, ?_, ?_⟩
  · rintro rfl; rfl
  · rintro rfl
    rw [List.pairwise_map]
    exact sortKeys_sorted keys

theorem ordered_unique {sort : Bool} {keys keys' : List Pt} {e e' : List Bytes} (h : spec.Ordered sort keys e)
    (h' : spec.Ordered sort keys' e') (hk : keys = keys' ∨ (sort = true ∧ (keys.map serializePubKey).Perm (keys'.map serializePubKey))) : e = e' := by
  cases sort with
  | false =>
    rcases hk with rfl | ⟨h, -⟩
    · rw [h.2.1 rfl, h'.2.1 rfl]
    · cases h
  | true =>
    have hp : e.Perm e' := by
      refine h.1.trans (List.Perm.trans ?_ h'.1.symm)
      rcases hk with rfl | ⟨-, h⟩
      · exact List.Perm.refl _
      · exact h
    exact List.Perm.eq_of_pairwise' (h.2.2 rfl) (h'.2.2 rfl) hp

theorem agg_pre {th : TH} {keys : List Pt} {sort : Bool} {opt : TweakOpt} {ag : Agg} (h : aggregateKeys th keys sort opt = .ok ag) :
    ag.pre = sumKeys th (maybeSort sort keys) ∧ ∃ ts, tweaksOf th ag.pre opt = some ts ∧
      applyTweaks ts (ag.pre, 1, 0) = .ok (ag.final, ag.parityAcc, ag.tweakAcc) := by
  unfold aggregateKeys at h
  simp only at h
  split at h
  · cases h
  · rename_i ts hts
    split at h
    · cases h
    · rename_i q g a hq
      injection h with h
      subst h
      exact ⟨rfl, ts, hts, hq⟩

/-- **C96.** The untweaked aggregate is the sum over the keys of coefficient times key, with the coefficients of the specification, in
the order given or, when sorting is asked for, in lexicographic order of the encodings. -/
theorem C96_aggregate (th : TH) (keys : List Pt) (sort : Bool) (opt : TweakOpt) (ag : Agg)
    (h : aggregateKeys th keys sort opt = .ok ag) (encs : List Bytes) (he : spec.Ordered sort keys encs) :
    ag.pre = (keys.map fun k => spec.coef th encs (serializePubKey k) • k).sum := by
  obtain ⟨h, -⟩ := agg_pre h
  rw [h, sumKeys_eq]
  have he' := ordered_unique (ordered_maybeSort sort keys) he (Or.inl rfl)
  unfold cf
  rw [he']
  have := ((maybeSort_perm sort keys).map fun k => ((spec.coef th encs (serializePubKey k) : Nat) : Sc) • k).sum_eq
  rw [this]
  congr 1
  apply List.map_congr_left
  intro k _
  exact nat_smul _ _

/-- **C96.** Such an order exists, so the aggregate is always determined. -/
theorem C96_order_exists (keys : List Pt) (sort : Bool) : ∃ encs, spec.Ordered sort keys encs ∧ ∀ e', spec.Ordered sort keys e' → e' = encs :=
  ⟨_, ordered_maybeSort sort keys, fun _ h => ordered_unique h (ordered_maybeSort sort keys) (Or.inl rfl)⟩

theorem tweakKey_ok {Q : Pt} {g a : Sc} {t : Tweak} {r : Pt × Sc × Sc} :
    tweakKey Q g t.tweak a t.xOnly = .ok r ↔ beNat t.tweak < ord ∧ spec.tweaked Q t ≠ 0 ∧
      r = (spec.tweaked Q t, g * (if t.xOnly then sgn Q else 1), a * (if t.xOnly then sgn Q else 1) + (beNat t.tweak : Sc)) := by
  have hpf : (if (t.xOnly && !hasEvenY Q) = true then (-1 : Sc) else 1) = if t.xOnly then sgn Q else 1 := by
    rw [hasEvenY_eq]; unfold sgn; cases t.xOnly <;> cases oddY Q <;> rfl
  have hq : mulG (beNat t.tweak : Sc) + mul (if t.xOnly then sgn Q else 1) Q = spec.tweaked Q t := by
    unfold spec.tweaked
    rw [mulG_eq, mul_eq, nat_smul, add_comm]
    congr 1
    cases t.xOnly
    · simp
    · simp [sgn_smul]
  unfold tweakKey setBytes
  simp only
  rw [hpf, hq]
  by_cases h1 : ord ≤ beNat t.tweak
  · rw [if_pos (by simpa using h1)]
    exact ⟨fun h => (by cases h), fun h => absurd h1 (not_le.2 h.1)⟩
  · rw [if_neg (by simpa using h1)]
    by_cases h2 : spec.tweaked Q t = 0
    · rw [if_pos h2]
      exact ⟨fun h => (by cases h), fun h => absurd h2 h.2.1⟩
    · rw [if_neg h2]
      constructor
      · intro h; injection h with h; exact ⟨not_le.1 h1, h2, h.symm⟩
      · rintro ⟨-, -, rfl⟩; rfl

theorem applyTweaks_ok : ∀ {ts : List Tweak} {Q : Pt} {g a : Sc} {r : Pt × Sc × Sc}, applyTweaks ts (Q, g, a) = .ok r →
    r.1 = spec.tweakAll Q ts ∧ (∀ t ∈ ts, beNat t.tweak < ord) ∧ (∀ P ∈ spec.chain Q ts, P ≠ 0) ∧
    ∀ B : Pt, Q = g • B + a • G → r.1 = r.2.1 • B + r.2.2 • G
  | [], Q, g, a, r, h => by
    unfold applyTweaks at h
    injection h with h
    subst h
    exact ⟨rfl, by simp, by simp [spec.chain], fun B hB => hB⟩
  | t :: ts, Q, g, a, r, h => by
    unfold applyTweaks at h
    split at h
    · cases h
    · rename_i r' hr
      rw [tweakKey_ok] at hr
      obtain ⟨h1, h2, rfl⟩ := hr
      obtain ⟨i1, i2, i3, i4⟩ := applyTweaks_ok h
      refine ⟨i1, ?_, ?_, fun B hB => i4 B ?_⟩
      · intro t' ht'
        rcases List.mem_cons.1 ht' with rfl | ht'
        · exact h1
        · exact i2 _ ht'
      · intro P hP
        unfold spec.chain at hP
        rcases List.mem_cons.1 hP with rfl | hP
        · exact h2
        · exact i3 _ hP
      · unfold spec.tweaked
        rw [add_smul, nat_smul]
        have : (if t.xOnly = true then even Q else Q) = (if t.xOnly = true then sgn Q else (1 : Sc)) • Q := by
          split
          · rw [sgn_smul]
          · rw [one_smul]
        rw [this]
        generalize (if t.xOnly = true then sgn Q else (1 : Sc)) = s
        rw [hB, smul_add, smul_smul, smul_smul, mul_comm s g, mul_comm s a, add_assoc]

theorem applyTweaks_succeeds : ∀ {ts : List Tweak} {Q : Pt} (g a : Sc), (∀ t ∈ ts, beNat t.tweak < ord) → (∀ P ∈ spec.chain Q ts, P ≠ 0) →
    ∃ r, applyTweaks ts (Q, g, a) = .ok r
  | [], Q, g, a, _, _ => ⟨_, rfl⟩
  | t :: ts, Q, g, a, h1, h2 => by
    unfold applyTweaks
    have := (tweakKey_ok (Q := Q) (g := g) (a := a) (t := t) (r := _)).2 ⟨h1 t (by simp), h2 _ (by unfold spec.chain; simp), rfl⟩
    rw [this]
    exact applyTweaks_succeeds _ _ (fun t' ht' => h1 t' (by simp [ht'])) (fun P hP => h2 P (by unfold spec.chain; simp [hP]))

/-- **C96.** With WithKeyTweaks the final key is the aggregate with the tweaks applied in order, each t·G added to the key or, for an
x-only tweak, to its even-y form; it succeeds exactly when every tweak is below the group order and no key on the way is infinity. -/
theorem C96_tweaks (th : TH) (keys : List Pt) (sort : Bool) (ts : List Tweak) :
    (∀ ag, aggregateKeys th keys sort (.plain ts) = .ok ag → ag.final = spec.tweakAll ag.pre ts) ∧
    ((∃ ag, aggregateKeys th keys sort (.plain ts) = .ok ag) ↔
      (∀ t ∈ ts, beNat t.tweak < ord) ∧ ∀ P ∈ spec.chain (sumKeys th (maybeSort sort keys)) ts, P ≠ 0) := by
  constructor
  · intro ag h
    obtain ⟨-, ts', h1, h2⟩ := agg_pre h
    injection h1 with h1
    subst h1
    exact (applyTweaks_ok h2).1
  · constructor
    · rintro ⟨ag, h⟩
      obtain ⟨h0, ts', h1, h2⟩ := agg_pre h
      injection h1 with h1
      subst h1
      rw [← h0]
      exact ⟨(applyTweaks_ok h2).2.1, (applyTweaks_ok h2).2.2.1⟩
    · rintro ⟨h1, h2⟩
      obtain ⟨⟨q, g, a⟩, hr⟩ := applyTweaks_succeeds 1 0 h1 h2
      refine ⟨⟨q, sumKeys th (maybeSort sort keys), g, a⟩, ?_⟩
      unfold aggregateKeys tweaksOf
      simp only
      rw [hr]

/-- **C96.** The accumulators returned with the key: final = parity·(untweaked) + tweak·G. -/
theorem C96_accumulators (th : TH) (keys : List Pt) (sort : Bool) (opt : TweakOpt) (ag : Agg)
    (h : aggregateKeys th keys sort opt = .ok ag) : ag.final = ag.parityAcc.val • ag.pre + ag.tweakAcc.val • G := by
  obtain ⟨-, ts, -, h⟩ := agg_pre h
  have := (applyTweaks_ok h).2.2.2 ag.pre (by rw [one_smul, (zero_smul Sc G : (0 : Sc) • G = 0), add_zero])
  simp only at this
  rw [this]
  change _ = mul _ _ + mul _ _
  rw [mul_eq, mul_eq]

theorem agg_eq {th : TH} {keys : List Pt} {sort : Bool} {opt : TweakOpt} {ag : Agg} (h : aggregateKeys th keys sort opt = .ok ag) :
    ag.final = ag.parityAcc • ag.pre + ag.tweakAcc • G := by
  rw [C96_accumulators th keys sort opt ag h]
  change mul _ _ + mul _ _ = _
  rw [mul_eq, mul_eq]

/-- **C96.** Taproot: the final key is the even-y form of the aggregate plus H(TapTweak, x ‖ root)·G, where x is the x-only encoding of the
aggregate; BIP 86 is the same with nothing after x. -/
theorem C96_taproot (th : TH) (keys : List Pt) (sort : Bool) (opt : TweakOpt) (suffix : Bytes)
    (hopt : (∃ root, opt = .taproot root ∧ root.length = 32 ∧ suffix = root) ∨ (opt = .bip86 ∧ suffix = [])) (ag : Agg)
    (h : aggregateKeys th keys sort opt = .ok ag) :
    ag.pre ≠ 0 ∧ beNat (th "TapTweak" (serializePubKey ag.pre ++ suffix)) < ord ∧
    ag.final = even ag.pre + beNat (th "TapTweak" (serializePubKey ag.pre ++ suffix)) • G ∧ ag.final ≠ 0 := by
  obtain ⟨-, ts, h1, h2⟩ := agg_pre h
  have hts : ag.pre ≠ 0 ∧ ts = [⟨th "TapTweak" (serializePubKey ag.pre ++ suffix), true⟩] := by
    by_cases h0 : ag.pre = 0
    · exfalso
      obtain ⟨e, he⟩ := parseXOnly_zero
      rcases hopt with ⟨root, rfl, -, -⟩ | ⟨rfl, -⟩ <;>
      · unfold tweaksOf at h1
        rw [h0, serialize_eq, he] at h1
        cases h1
    refine ⟨h0, ?_⟩
    have hp := parseXOnly_xb h0
    rcases hopt with ⟨root, rfl, hl, rfl⟩ | ⟨rfl, rfl⟩
    · unfold tweaksOf at h1
      rw [serialize_eq, hp] at h1
      simp only at h1
      rw [serialize_eq, xb_even] at h1
      have : pad32 suffix = suffix := by
        unfold pad32
        rw [List.take_append_of_le_length (by omega), List.take_of_length_le (by omega)]
      rw [this] at h1
      injection h1 with h1
      rw [serialize_eq]
      exact h1.symm
    · unfold tweaksOf at h1
      rw [serialize_eq, hp] at h1
      simp only at h1
      rw [serialize_eq, xb_even] at h1
      injection h1 with h1
      rw [serialize_eq]
      exact h1.symm
  obtain ⟨h0, rfl⟩ := hts
  obtain ⟨i1, i2, i3, -⟩ := applyTweaks_ok h2
  refine ⟨h0, i2 _ (List.mem_singleton.2 rfl), ?_, ?_⟩
  · simp only at i1; rw [i1]; rfl
  · simp only at i1
    rw [i1]
    exact i3 _ (by unfold spec.chain; exact List.mem_singleton.2 rfl)

/-- **C96.** Sorted aggregation does not depend on the order of the keys. -/
theorem C96_order_irrelevant (th : TH) (keys keys' : List Pt) (hp : keys.Perm keys') (opt : TweakOpt) :
    aggregateKeys th keys true opt = aggregateKeys th keys' true opt := by
  have hs : sumKeys th (maybeSort true keys) = sumKeys th (maybeSort true keys') := by
    rw [sumKeys_eq, sumKeys_eq]
    have he := ordered_unique (ordered_maybeSort true keys) (ordered_maybeSort true keys') (Or.inr ⟨rfl, hp.map _⟩)
    unfold cf
    rw [he]
    exact (((maybeSort_perm true keys).trans (hp.trans (maybeSort_perm true keys').symm)).map _).sum_eq
  unfold aggregateKeys
  simp only
  rw [hs]

/-- **C96.** The keys only enter through their x-only encodings and themselves: coefficients ignore the sign of y. -/
theorem C96_coefficient_x_only (th : TH) (keys : List Pt) (k : Pt) :
    aggregationCoefficient th keys (-k) (keyHashFingerprint th keys) (secondUniqueKeyIndex keys) =
    aggregationCoefficient th keys k (keyHashFingerprint th keys) (secondUniqueKeyIndex keys) := by
  rw [coefficient_eq, coefficient_eq, serialize_eq, serialize_eq]
  unfold xb
  rw [xOf_neg]

/-- **C96.** An aggregate at infinity is not noticed: a key together with its opposite aggregates, without an error, to the point at
infinity, a "public key" under which nothing verifies; asking for a taproot tweak of it panics. -/
theorem C96_infinity_unnoticed (th : TH) (P : Pt) (sort : Bool) :
    aggregateKeys th [P, -P] sort (.plain []) = .ok ⟨0, 0, 1, 0⟩ ∧
    (∀ g m, verify th g m 0 = false) ∧
    (∀ root, aggregateKeys th [P, -P] sort (.taproot root) = .panic) ∧ aggregateKeys th [P, -P] sort .bip86 = .panic := by
  have hx : serializePubKey (-P) = serializePubKey P := by rw [serialize_eq, serialize_eq]; unfold xb; rw [xOf_neg]
  have hs : sumKeys th (maybeSort sort [P, -P]) = 0 := by
    rw [sumKeys_eq, ((maybeSort_perm sort [P, -P]).map _).sum_eq]
    simp only [List.map_cons, List.map_nil, List.sum_cons, List.sum_nil]
    unfold cf
    rw [hx, smul_neg, add_zero, add_neg_cancel]
  obtain ⟨e, he⟩ := parseXOnly_zero
  refine ⟨?_, fun g m => C94_verify_infinity th g m, fun root => ?_, ?_⟩
  · unfold aggregateKeys
    simp only
    rw [hs]
    rfl
  · unfold aggregateKeys tweaksOf
    simp only
    rw [hs, serialize_eq, he]
  · unfold aggregateKeys tweaksOf
    simp only
    rw [hs, serialize_eq, he]

/-- Concrete: two different keys aggregate to 1·second + a·first. -/
example (th : TH) (P Q : Pt) (h : serializePubKey Q ≠ serializePubKey P) : ∃ ag, aggregateKeys th [P, Q] false (.plain []) = .ok ag ∧
    ag.final = beNat (th "KeyAgg coefficient" (th "KeyAgg list" (serializePubKey P ++ serializePubKey Q) ++ serializePubKey P)) • P + Q := by
  obtain ⟨ag, hag⟩ := (C96_tweaks th [P, Q] false []).2.2 ⟨by simp, by simp [spec.chain]⟩
  refine ⟨ag, hag, ?_⟩
  have h1 := (C96_tweaks th [P, Q] false []).1 ag hag
  have h2 := C96_aggregate th [P, Q] false _ ag hag _ (ordered_maybeSort false [P, Q])
  rw [h1]
  unfold spec.tweakAll
  rw [List.foldl_nil, h2]
  simp [maybeSort, spec.coef, spec.second, h, h.symm]

end Tss.Musig2
