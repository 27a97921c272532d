import Verif.Props.PointText
/-!
C132: exactly which texts are read as which key data.
-/
namespace Tss.SaveJson
open Tss Text RangeProofs pspec

namespace sspec

/-- The last member for the field, null or not. -/
def LastAny (k : Bytes) (l : List (Bytes × Json)) (v : Json) : Prop :=
  ∃ pre n post, l = pre ++ (n, v) :: post ∧ Names n k ∧ ∀ m ∈ post, ¬ Names m.1 k

/-- A field: every member for it can be read, the last one gives the value, without one it is `dflt`. -/
def Entry {α : Type} (k : Bytes) (l : List (Bytes × Json)) (R : Json → α → Prop) (dflt x : α) : Prop :=
  (∀ m ∈ l, Names m.1 k → ∃ y, R m.2 y) ∧ ((∃ v, LastAny k l v ∧ R v x) ∨ (∀ m ∈ l, ¬ Names m.1 k) ∧ x = dflt)

/-- A `*big.Int`. -/
def Big (v : Json) (o : Option Int) : Prop := (v = .null ∧ o = none) ∨ ∃ z, o = some z ∧ IsInt v z

/-- A slice. -/
def Slice {α : Type} (R : Json → α → Prop) (v : Json) (l : List α) : Prop := (v = .null ∧ l = []) ∨ ∃ a, v = .arr a ∧ List.Forall₂ R a l

/-- A pointer to a struct: null or an object. -/
def Ptr {α : Type} (P : List (Bytes × Json) → α → Prop) (v : Json) (o : Option α) : Prop :=
  (v = .null ∧ o = none) ∨ ∃ l x, v = .obj l ∧ o = some x ∧ P l x

/-- A Paillier public key; a missing modulus counts as 0. -/
def PaiObj (l : List (Bytes × Json)) (z : Int) : Prop := ∃ n, Entry (ascii "n") l Big none n ∧ z = n.getD 0

/-- Ring-Pedersen parameters; missing numbers count as 0. -/
def PedObj (l : List (Bytes × Json)) (p : Int × Int × Int) : Prop :=
  ∃ n s t, Entry (ascii "n") l Big none n ∧ Entry (ascii "s") l Big none s ∧ Entry (ascii "t") l Big none t ∧
    p = (n.getD 0, s.getD 0, t.getD 0)

/-- A point on its curve; a point without a curve's name is on Ed25519. -/
def Point (l : List (Bytes × Json)) (q : CPoint) : Prop := PointObj .ed25519 l q.c q.p.x q.p.y ∧ q.c.curve.isOnCurve q.p.x q.p.y = true

/-- The record a text stands for. -/
def SaveText (b : Bytes) (d : SaveAny) : Prop :=
  (Json.gspec.Text b .null ∧ d = ⟨none, none, [], [], [], none, [], []⟩) ∨
  ∃ l, Json.gspec.Text b (.obj l) ∧
    Entry (ascii "privxi") l Big none d.privXi ∧ Entry (ascii "shareid") l Big none d.shareID ∧
    Entry (ascii "chaincodes") l (Slice Big) [] d.chainCodes ∧ Entry (ascii "ks") l (Slice Big) [] d.ks ∧
    Entry (ascii "pubxj") l (Slice (Ptr Point)) [] d.pubXj ∧ Entry (ascii "eddsapub") l (Ptr Point) none d.eddsaPub ∧
    Entry (ascii "paillierpks") l (Slice (Ptr PaiObj)) [] d.paillierPKs ∧
    Entry (ascii "ringpedersenpks") l (Slice (Ptr PedObj)) [] d.ringPedersenPKs

end sspec

open sspec

/-! ### one field -/

theorem lastAny_snoc {k : Bytes} {l : List (Bytes × Json)} {m : Bytes × Json} {v : Json} :
    LastAny k (l ++ [m]) v ↔ (Names m.1 k ∧ v = m.2) ∨ (¬ Names m.1 k ∧ LastAny k l v) := by
  constructor
  · rintro ⟨pre, n, post, e, hn, hp⟩
    rcases List.eq_nil_or_concat post with rfl | ⟨post, z, rfl⟩
    · obtain ⟨rfl, e2⟩ := List.append_inj' e rfl
      cases e2
      exact .inl ⟨hn, rfl⟩
    · rw [List.concat_eq_append, ← List.cons_append, ← List.append_assoc] at e
      obtain ⟨rfl, e2⟩ := List.append_inj' e rfl
      cases e2
      exact .inr ⟨hp m (by simp), pre, n, post, rfl, hn, fun x hx => hp x (by simp [hx])⟩
  · rintro (⟨hn, rfl⟩ | ⟨hz, pre, n, post, rfl, hn, hq⟩)
    · exact ⟨l, m.1, [], rfl, hn, by intro x hx; cases hx⟩
    · refine ⟨pre, n, post ++ [m], by simp, hn, fun x hx => ?_⟩
      rcases List.mem_append.mp hx with hx | hx
      · exact hq x hx
      · rw [show x = m by simpa using hx]; exact hz

theorem lastAny_or {k : Bytes} (l : List (Bytes × Json)) : (∃ v, LastAny k l v) ∨ ∀ m ∈ l, ¬ Names m.1 k := by
  induction l using List.reverseRecOn with
  | nil => right; intro m hm; cases hm
  | append_singleton l m ih =>
    by_cases hm : Names m.1 k
    · exact .inl ⟨m.2, lastAny_snoc.mpr (.inl ⟨hm, rfl⟩)⟩
    · rcases ih with ⟨v, h⟩ | h
      · exact .inl ⟨v, lastAny_snoc.mpr (.inr ⟨hm, h⟩)⟩
      · right
        intro x hx
        rcases List.mem_append.mp hx with hx | hx
        · exact h x hx
        · rw [show x = m by simpa using hx]; exact hm

theorem field_nil {α : Type} {k : Bytes} {R : Json → α → Prop} {d x : α} : Entry k [] R d x ↔ x = d := by
  unfold Entry
  constructor
  · rintro ⟨_, ⟨v, ⟨pre, n, post, e, _⟩, _⟩ | h⟩
    · cases pre <;> cases e
    · exact h.2
  · rintro rfl; exact ⟨by simp, .inr ⟨by simp, rfl⟩⟩

theorem field_other {α : Type} {k : Bytes} {R : Json → α → Prop} {d x : α} {l : List (Bytes × Json)} {m : Bytes × Json}
    (h : ¬ Names m.1 k) : Entry k (l ++ [m]) R d x ↔ Entry k l R d x := by
  unfold Entry
  simp only [lastAny_snoc, h, false_and, not_false_eq_true, true_and, false_or, List.mem_append, List.mem_singleton]
  constructor
  · rintro ⟨h1, h2⟩
    exact ⟨fun m hm => h1 m (.inl hm), h2.imp id fun h => ⟨fun m hm => h.1 m (.inl hm), h.2⟩⟩
  · rintro ⟨h1, h2⟩
    refine ⟨?_, h2.imp id fun h' => ⟨?_, h'.2⟩⟩
    · rintro x (hx | rfl) hn
      · exact h1 x hx hn
      · exact absurd hn h
    · rintro x (hx | rfl)
      · exact h'.1 x hx
      · exact h

theorem field_here {α : Type} {k : Bytes} {R : Json → α → Prop} {d x : α} {l : List (Bytes × Json)} {m : Bytes × Json}
    (h : Names m.1 k) : Entry k (l ++ [m]) R d x ↔ (∃ y, Entry k l R d y) ∧ R m.2 x := by
  unfold Entry
  simp only [lastAny_snoc, h, true_and, not_true_eq_false, false_and, or_false, List.mem_append, List.mem_singleton]
  constructor
  · rintro ⟨h1, h2⟩
    refine ⟨?_, ?_⟩
    · rcases lastAny_or (k := k) l with ⟨v, pre, n, post, rfl, hn, hp⟩ | h0
      · obtain ⟨y, hy⟩ := h1 (n, v) (by simp) hn
        exact ⟨y, fun m hm => h1 m (.inl hm), .inl ⟨v, ⟨pre, n, post, rfl, hn, hp⟩, hy⟩⟩
      · exact ⟨d, fun m hm => h1 m (.inl hm), .inr ⟨h0, rfl⟩⟩
    · rcases h2 with ⟨v, rfl, hx⟩ | ⟨h0, _⟩
      · exact hx
      · exact absurd h (h0 m (.inr rfl))
  · rintro ⟨⟨y, h1, _⟩, hx⟩
    refine ⟨?_, .inl ⟨m.2, rfl, hx⟩⟩
    rintro z (hz | rfl) hn
    · exact h1 z hz hn
    · exact ⟨x, hx⟩

/-! ### the readers -/

theorem big_iff {v : Json} {o : Option Int} : readBig v = some o ↔ Big v o := readBig_iff

theorem mapM_iff {α β : Type} {f : α → Option β} {R : α → β → Prop} (h : ∀ a b, f a = some b ↔ R a b) :
    ∀ (l : List α) (m : List β), l.mapM f = some m ↔ List.Forall₂ R l m
  | [], m => by
    cases m <;> simp
  | a :: l, m => by
    simp only [List.mapM_cons, Option.pure_def, Option.bind_eq_bind, Option.bind_eq_some_iff, Option.some.injEq]
    constructor
    · rintro ⟨b, hb, t, ht, rfl⟩
      exact .cons ((h a b).mp hb) ((mapM_iff h l t).mp ht)
    · intro hf
      cases hf with
      | cons hb ht => exact ⟨_, (h _ _).mpr hb, _, (mapM_iff h _ _).mpr ht, rfl⟩

theorem list_iff {α : Type} {f : Json → Option α} {R : Json → α → Prop} (h : ∀ a b, f a = some b ↔ R a b) (v : Json) (l : List α) :
    readList f v = some l ↔ Slice R v l := by
  unfold Slice
  cases v with
  | null => simp [readList, eq_comm]
  | arr a => simp [readList, mapM_iff h]
  | _ => simp [readList]

theorem names_short (k : Bytes) (hk : ∀ c ∈ k, Lower c) {s : Bytes} : Json.foldName s = k ↔ Names s k := names_iff hk

theorem n_iff {s : Bytes} : Json.foldName s = ascii "n" ↔ Names s (ascii "n") := names_iff (by unfold Lower; decide)
theorem s_iff {s : Bytes} : Json.foldName s = ascii "s" ↔ Names s (ascii "s") := names_iff (by unfold Lower; decide)
theorem t_iff {s : Bytes} : Json.foldName s = ascii "t" ↔ Names s (ascii "t") := names_iff (by unfold Lower; decide)

theorem names_unique {s k k' : Bytes} (hk : ∀ c ∈ k, Lower c) (hk' : ∀ c ∈ k', Lower c) (h : Names s k) (hne : k ≠ k') : ¬ Names s k' :=
  fun h' => hne (((names_iff hk).mpr h).symm.trans ((names_iff hk').mpr h'))

theorem foldN_iff (l : List (Bytes × Json)) (n : Option Int) : l.foldlM readN none = some n ↔ Entry (ascii "n") l Big none n := by
  induction l using List.reverseRecOn generalizing n with
  | nil => rw [field_nil]; simp [eq_comm]
  | append_singleton l m ih =>
    rw [List.foldlM_append]
    simp only [List.foldlM_cons, List.foldlM_nil, Option.bind_eq_bind, Option.pure_def, Option.bind_eq_some_iff,
      Option.some.injEq, ih, exists_eq_right]
    by_cases h : Names m.1 (ascii "n")
    · rw [field_here h]
      simp only [readN, n_iff, h, if_true, big_iff, exists_and_right]
    · rw [field_other h]
      simp only [readN, n_iff, h, if_false, Option.some.injEq, exists_eq_right]

theorem paillier_iff (v : Json) (o : Option Int) : readPaillier v = some o ↔ Ptr PaiObj v o := by
  unfold Ptr PaiObj
  cases v with
  | null => simp [readPaillier, eq_comm]
  | obj l =>
    simp only [readPaillier, Option.map_eq_some_iff, foldN_iff, reduceCtorEq, false_and, false_or, Json.obj.injEq]
    constructor
    · rintro ⟨n, hn, rfl⟩; exact ⟨l, _, rfl, rfl, n, hn, rfl⟩
    · rintro ⟨_, _, rfl, rfl, n, hn, rfl⟩; exact ⟨n, hn, rfl⟩
  | _ => simp [readPaillier]

theorem foldNst_iff (l : List (Bytes × Json)) (p : Option Int × Option Int × Option Int) :
    l.foldlM readNst (none, none, none) = some p ↔
      Entry (ascii "n") l Big none p.1 ∧ Entry (ascii "s") l Big none p.2.1 ∧ Entry (ascii "t") l Big none p.2.2 := by
  induction l using List.reverseRecOn generalizing p with
  | nil =>
    obtain ⟨a, b, c⟩ := p
    simp only [field_nil, List.foldlM_nil, Option.pure_def, Option.some.injEq, Prod.mk.injEq]
    constructor
    · rintro ⟨rfl, rfl, rfl⟩; exact ⟨rfl, rfl, rfl⟩
    · rintro ⟨rfl, rfl, rfl⟩; exact ⟨rfl, rfl, rfl⟩
  | append_singleton l m ih =>
    obtain ⟨a, b, c⟩ := p
    rw [List.foldlM_append]
    simp only [List.foldlM_cons, List.foldlM_nil, Option.bind_eq_bind, Option.pure_def, Option.bind_eq_some_iff,
      Option.some.injEq, ih, exists_eq_right]
    by_cases h1 : Json.foldName m.1 = ascii "n"
    · have g1 := n_iff.mp h1
      have g2 : ¬ Names m.1 (ascii "s") := fun h => absurd (h1.symm.trans (s_iff.mpr h)) (by decide)
      have g3 : ¬ Names m.1 (ascii "t") := fun h => absurd (h1.symm.trans (t_iff.mpr h)) (by decide)
      rw [field_here g1, field_other g2, field_other g3]
      simp only [readNst, if_pos h1, Option.map_eq_some_iff, big_iff, Prod.mk.injEq]
      constructor
      · rintro ⟨⟨a', b', c'⟩, ⟨f1, f2, f3⟩, x, hx, rfl, rfl, rfl⟩; exact ⟨⟨⟨_, f1⟩, hx⟩, f2, f3⟩
      · rintro ⟨⟨⟨y, f1⟩, hx⟩, f2, f3⟩; exact ⟨(y, b, c), ⟨f1, f2, f3⟩, a, hx, rfl, rfl, rfl⟩
    by_cases h2 : Json.foldName m.1 = ascii "s"
    · have g2 := s_iff.mp h2
      have g1 : ¬ Names m.1 (ascii "n") := fun h => h1 (n_iff.mpr h)
      have g3 : ¬ Names m.1 (ascii "t") := fun h => absurd (h2.symm.trans (t_iff.mpr h)) (by decide)
      rw [field_here g2, field_other g1, field_other g3]
      simp only [readNst, if_neg h1, if_pos h2, Option.map_eq_some_iff, big_iff, Prod.mk.injEq]
      constructor
      · rintro ⟨⟨a', b', c'⟩, ⟨f1, f2, f3⟩, x, hx, rfl, rfl, rfl⟩; exact ⟨f1, ⟨⟨_, f2⟩, hx⟩, f3⟩
      · rintro ⟨f1, ⟨⟨y, f2⟩, hx⟩, f3⟩; exact ⟨(a, y, c), ⟨f1, f2, f3⟩, b, hx, rfl, rfl, rfl⟩
    by_cases h3 : Json.foldName m.1 = ascii "t"
    · have g3 := t_iff.mp h3
      have g1 : ¬ Names m.1 (ascii "n") := fun h => h1 (n_iff.mpr h)
      have g2 : ¬ Names m.1 (ascii "s") := fun h => h2 (s_iff.mpr h)
      rw [field_here g3, field_other g1, field_other g2]
      simp only [readNst, if_neg h1, if_neg h2, if_pos h3, Option.map_eq_some_iff, big_iff, Prod.mk.injEq]
      constructor
      · rintro ⟨⟨a', b', c'⟩, ⟨f1, f2, f3⟩, x, hx, rfl, rfl, rfl⟩; exact ⟨f1, f2, ⟨_, f3⟩, hx⟩
      · rintro ⟨f1, f2, ⟨y, f3⟩, hx⟩; exact ⟨(a, b, y), ⟨f1, f2, f3⟩, c, hx, rfl, rfl, rfl⟩
    · have g1 : ¬ Names m.1 (ascii "n") := fun h => h1 (n_iff.mpr h)
      have g2 : ¬ Names m.1 (ascii "s") := fun h => h2 (s_iff.mpr h)
      have g3 : ¬ Names m.1 (ascii "t") := fun h => h3 (t_iff.mpr h)
      rw [field_other g1, field_other g2, field_other g3]
      simp only [readNst, if_neg h1, if_neg h2, if_neg h3, Option.some.injEq, exists_eq_right]

theorem ped_iff (v : Json) (o : Option (Int × Int × Int)) : readPed v = some o ↔ Ptr PedObj v o := by
  unfold Ptr PedObj
  cases v with
  | null => simp [readPed, eq_comm]
  | obj l =>
    simp only [readPed, Option.map_eq_some_iff, foldNst_iff, reduceCtorEq, false_and, false_or, Json.obj.injEq]
    constructor
    · rintro ⟨⟨n, s, t⟩, ⟨h1, h2, h3⟩, rfl⟩; exact ⟨l, _, rfl, rfl, n, s, t, h1, h2, h3, rfl⟩
    · rintro ⟨_, _, rfl, rfl, n, s, t, h1, h2, h3, rfl⟩; exact ⟨(n, s, t), ⟨h1, h2, h3⟩, rfl⟩
  | _ => simp [readPed]

theorem cpoint_iff (v : Json) (o : Option CPoint) : readCPoint v = some o ↔ Ptr Point v o := by
  unfold Ptr Point
  cases v with
  | null =>
    constructor
    · intro h; cases h; exact .inl ⟨rfl, rfl⟩
    · rintro (⟨_, rfl⟩ | ⟨_, _, h, _⟩)
      · rfl
      · cases h
  | obj l =>
    simp only [reduceCtorEq, false_and, false_or, Json.obj.injEq]
    constructor
    · intro h
      have : ∃ q, o = some q ∧ readPointObj .ed25519 l = some q := by
        unfold readCPoint at h
        unfold readPointObj
        simp only at h
        split at h
        · cases h
        next a ha =>
        rw [ha]
        simp only
        split at h
        · cases h
        next c hc =>
        rw [hc]
        simp only
        split at h
        · next x y hx hy =>
          split at h
          · next hon => cases h; exact ⟨_, rfl, by rw [hx, hy]; simp only [if_pos hon]⟩
          · cases h
        · cases h
      obtain ⟨q, rfl, hq⟩ := this
      exact ⟨l, q, rfl, rfl, (pointObj_iff .ed25519 l q).mp hq⟩
    · rintro ⟨_, q, rfl, rfl, hq⟩
      have := (pointObj_iff .ed25519 l q).mpr hq
      unfold readPointObj at this
      unfold readCPoint
      simp only
      split at this
      · cases this
      next a ha =>
      rw [ha]
      simp only
      split at this
      · cases this
      next c hc =>
      rw [hc]
      simp only
      split at this
      · next x y hx hy =>
        split at this
        · next hon => cases this; rw [hx, hy]; simp only [if_pos hon]
        · cases this
      · cases this
  | _ => simp [readCPoint]

/-! ### the record -/

/-- The fields of the record. -/
def Fields (l : List (Bytes × Json)) (d : SaveAny) : Prop :=
  Entry (ascii "privxi") l Big none d.privXi ∧ Entry (ascii "shareid") l Big none d.shareID ∧
    Entry (ascii "chaincodes") l (Slice Big) [] d.chainCodes ∧ Entry (ascii "ks") l (Slice Big) [] d.ks ∧
    Entry (ascii "pubxj") l (Slice (Ptr Point)) [] d.pubXj ∧ Entry (ascii "eddsapub") l (Ptr Point) none d.eddsaPub ∧
    Entry (ascii "paillierpks") l (Slice (Ptr PaiObj)) [] d.paillierPKs ∧
    Entry (ascii "ringpedersenpks") l (Slice (Ptr PedObj)) [] d.ringPedersenPKs

theorem low (k : Bytes) (h : (k.all fun c => decide (97 ≤ c.toNat) && decide (c.toNat ≤ 122)) = true) : ∀ c ∈ k, Lower c := by
  intro c hc
  have := List.all_eq_true.mp h c hc
  rw [Bool.and_eq_true] at this
  exact ⟨of_decide_eq_true this.1, of_decide_eq_true this.2⟩

theorem fold_any_iff (l : List (Bytes × Json)) (d : SaveAny) :
    l.foldlM readFieldAny ⟨none, none, [], [], [], none, [], []⟩ = some d ↔ Fields l d := by
  induction l using List.reverseRecOn generalizing d with
  | nil =>
    obtain ⟨x1, x2, x3, x4, x5, x6, x7, x8⟩ := d
    simp only [Fields, field_nil, List.foldlM_nil, Option.pure_def, Option.some.injEq, SaveAny.mk.injEq, eq_comm]
  | append_singleton l m ih =>
    obtain ⟨x1, x2, x3, x4, x5, x6, x7, x8⟩ := d
    rw [List.foldlM_append]
    simp only [List.foldlM_cons, List.foldlM_nil, Option.bind_eq_bind, Option.pure_def, Option.bind_eq_some_iff,
      Option.some.injEq, ih, exists_eq_right]
    have no : ∀ {k : Bytes} (k' : Bytes), Json.foldName m.1 = k → (k'.all fun c => decide (97 ≤ c.toNat) && decide (c.toNat ≤ 122)) = true →
        k ≠ k' → ¬ Names m.1 k' := fun k' h hl hne hn => hne (h.symm.trans ((names_iff (low k' hl)).mpr hn))
    have no' : ∀ (k' : Bytes), ¬ Json.foldName m.1 = k' → (k'.all fun c => decide (97 ≤ c.toNat) && decide (c.toNat ≤ 122)) = true →
        ¬ Names m.1 k' := fun k' h hl hn => h ((names_iff (low k' hl)).mpr hn)
    have yes : ∀ {k : Bytes}, Json.foldName m.1 = k → (k.all fun c => decide (97 ≤ c.toNat) && decide (c.toNat ≤ 122)) = true →
        Names m.1 k := fun h hl => (names_iff (low _ hl)).mp h
    unfold Fields
    by_cases h1 : Json.foldName m.1 = ascii "privxi"
    · rw [field_here (yes h1 (by decide)), field_other (no _ h1 (by decide) (by decide)), field_other (no _ h1 (by decide) (by decide)),
        field_other (no _ h1 (by decide) (by decide)), field_other (no _ h1 (by decide) (by decide)),
        field_other (no _ h1 (by decide) (by decide)), field_other (no _ h1 (by decide) (by decide)),
        field_other (no _ h1 (by decide) (by decide))]
      simp only [readFieldAny, if_pos h1, Option.map_eq_some_iff, big_iff]
      constructor
      · rintro ⟨d0, ⟨f1, f2, f3, f4, f5, f6, f7, f8⟩, x, hx, e⟩
        cases e; exact ⟨⟨⟨_, f1⟩, hx⟩, f2, f3, f4, f5, f6, f7, f8⟩
      · rintro ⟨⟨⟨y, f1⟩, hx⟩, f2, f3, f4, f5, f6, f7, f8⟩
        exact ⟨⟨y, x2, x3, x4, x5, x6, x7, x8⟩, ⟨f1, f2, f3, f4, f5, f6, f7, f8⟩, _, hx, rfl⟩
    by_cases h2 : Json.foldName m.1 = ascii "shareid"
    · rw [field_other (no _ h2 (by decide) (by decide)), field_here (yes h2 (by decide)), field_other (no _ h2 (by decide) (by decide)),
        field_other (no _ h2 (by decide) (by decide)), field_other (no _ h2 (by decide) (by decide)),
        field_other (no _ h2 (by decide) (by decide)), field_other (no _ h2 (by decide) (by decide)),
        field_other (no _ h2 (by decide) (by decide))]
      simp only [readFieldAny, if_neg h1, if_pos h2, Option.map_eq_some_iff, big_iff]
      constructor
      · rintro ⟨d0, ⟨f1, f2, f3, f4, f5, f6, f7, f8⟩, x, hx, e⟩
        cases e; exact ⟨f1, ⟨⟨_, f2⟩, hx⟩, f3, f4, f5, f6, f7, f8⟩
      · rintro ⟨f1, ⟨⟨y, f2⟩, hx⟩, f3, f4, f5, f6, f7, f8⟩
        exact ⟨⟨x1, y, x3, x4, x5, x6, x7, x8⟩, ⟨f1, f2, f3, f4, f5, f6, f7, f8⟩, _, hx, rfl⟩
    by_cases h3 : Json.foldName m.1 = ascii "chaincodes"
    · rw [field_other (no _ h3 (by decide) (by decide)), field_other (no _ h3 (by decide) (by decide)), field_here (yes h3 (by decide)),
        field_other (no _ h3 (by decide) (by decide)), field_other (no _ h3 (by decide) (by decide)),
        field_other (no _ h3 (by decide) (by decide)), field_other (no _ h3 (by decide) (by decide)),
        field_other (no _ h3 (by decide) (by decide))]
      simp only [readFieldAny, if_neg h1, if_neg h2, if_pos h3, Option.map_eq_some_iff, list_iff (fun _ _ => big_iff)]
      constructor
      · rintro ⟨d0, ⟨f1, f2, f3, f4, f5, f6, f7, f8⟩, x, hx, e⟩
        cases e; exact ⟨f1, f2, ⟨⟨_, f3⟩, hx⟩, f4, f5, f6, f7, f8⟩
      · rintro ⟨f1, f2, ⟨⟨y, f3⟩, hx⟩, f4, f5, f6, f7, f8⟩
        exact ⟨⟨x1, x2, y, x4, x5, x6, x7, x8⟩, ⟨f1, f2, f3, f4, f5, f6, f7, f8⟩, _, hx, rfl⟩
    by_cases h4 : Json.foldName m.1 = ascii "ks"
    · rw [field_other (no _ h4 (by decide) (by decide)), field_other (no _ h4 (by decide) (by decide)),
        field_other (no _ h4 (by decide) (by decide)), field_here (yes h4 (by decide)), field_other (no _ h4 (by decide) (by decide)),
        field_other (no _ h4 (by decide) (by decide)), field_other (no _ h4 (by decide) (by decide)),
        field_other (no _ h4 (by decide) (by decide))]
      simp only [readFieldAny, if_neg h1, if_neg h2, if_neg h3, if_pos h4, Option.map_eq_some_iff, list_iff (fun _ _ => big_iff)]
      constructor
      · rintro ⟨d0, ⟨f1, f2, f3, f4, f5, f6, f7, f8⟩, x, hx, e⟩
        cases e; exact ⟨f1, f2, f3, ⟨⟨_, f4⟩, hx⟩, f5, f6, f7, f8⟩
      · rintro ⟨f1, f2, f3, ⟨⟨y, f4⟩, hx⟩, f5, f6, f7, f8⟩
        exact ⟨⟨x1, x2, x3, y, x5, x6, x7, x8⟩, ⟨f1, f2, f3, f4, f5, f6, f7, f8⟩, _, hx, rfl⟩
    by_cases h5 : Json.foldName m.1 = ascii "pubxj"
    · rw [field_other (no _ h5 (by decide) (by decide)), field_other (no _ h5 (by decide) (by decide)),
        field_other (no _ h5 (by decide) (by decide)), field_other (no _ h5 (by decide) (by decide)), field_here (yes h5 (by decide)),
        field_other (no _ h5 (by decide) (by decide)), field_other (no _ h5 (by decide) (by decide)),
        field_other (no _ h5 (by decide) (by decide))]
      simp only [readFieldAny, if_neg h1, if_neg h2, if_neg h3, if_neg h4, if_pos h5, Option.map_eq_some_iff, list_iff cpoint_iff]
      constructor
      · rintro ⟨d0, ⟨f1, f2, f3, f4, f5, f6, f7, f8⟩, x, hx, e⟩
        cases e; exact ⟨f1, f2, f3, f4, ⟨⟨_, f5⟩, hx⟩, f6, f7, f8⟩
      · rintro ⟨f1, f2, f3, f4, ⟨⟨y, f5⟩, hx⟩, f6, f7, f8⟩
        exact ⟨⟨x1, x2, x3, x4, y, x6, x7, x8⟩, ⟨f1, f2, f3, f4, f5, f6, f7, f8⟩, _, hx, rfl⟩
    by_cases h6 : Json.foldName m.1 = ascii "eddsapub"
    · rw [field_other (no _ h6 (by decide) (by decide)), field_other (no _ h6 (by decide) (by decide)),
        field_other (no _ h6 (by decide) (by decide)), field_other (no _ h6 (by decide) (by decide)),
        field_other (no _ h6 (by decide) (by decide)), field_here (yes h6 (by decide)), field_other (no _ h6 (by decide) (by decide)),
        field_other (no _ h6 (by decide) (by decide))]
      simp only [readFieldAny, if_neg h1, if_neg h2, if_neg h3, if_neg h4, if_neg h5, if_pos h6, Option.map_eq_some_iff, cpoint_iff]
      constructor
      · rintro ⟨d0, ⟨f1, f2, f3, f4, f5, f6, f7, f8⟩, x, hx, e⟩
        cases e; exact ⟨f1, f2, f3, f4, f5, ⟨⟨_, f6⟩, hx⟩, f7, f8⟩
      · rintro ⟨f1, f2, f3, f4, f5, ⟨⟨y, f6⟩, hx⟩, f7, f8⟩
        exact ⟨⟨x1, x2, x3, x4, x5, y, x7, x8⟩, ⟨f1, f2, f3, f4, f5, f6, f7, f8⟩, _, hx, rfl⟩
    by_cases h7 : Json.foldName m.1 = ascii "paillierpks"
    · rw [field_other (no _ h7 (by decide) (by decide)), field_other (no _ h7 (by decide) (by decide)),
        field_other (no _ h7 (by decide) (by decide)), field_other (no _ h7 (by decide) (by decide)),
        field_other (no _ h7 (by decide) (by decide)), field_other (no _ h7 (by decide) (by decide)), field_here (yes h7 (by decide)),
        field_other (no _ h7 (by decide) (by decide))]
      simp only [readFieldAny, if_neg h1, if_neg h2, if_neg h3, if_neg h4, if_neg h5, if_neg h6, if_pos h7, Option.map_eq_some_iff,
        list_iff paillier_iff]
      constructor
      · rintro ⟨d0, ⟨f1, f2, f3, f4, f5, f6, f7, f8⟩, x, hx, e⟩
        cases e; exact ⟨f1, f2, f3, f4, f5, f6, ⟨⟨_, f7⟩, hx⟩, f8⟩
      · rintro ⟨f1, f2, f3, f4, f5, f6, ⟨⟨y, f7⟩, hx⟩, f8⟩
        exact ⟨⟨x1, x2, x3, x4, x5, x6, y, x8⟩, ⟨f1, f2, f3, f4, f5, f6, f7, f8⟩, _, hx, rfl⟩
    by_cases h8 : Json.foldName m.1 = ascii "ringpedersenpks"
    · rw [field_other (no _ h8 (by decide) (by decide)), field_other (no _ h8 (by decide) (by decide)),
        field_other (no _ h8 (by decide) (by decide)), field_other (no _ h8 (by decide) (by decide)),
        field_other (no _ h8 (by decide) (by decide)), field_other (no _ h8 (by decide) (by decide)),
        field_other (no _ h8 (by decide) (by decide)), field_here (yes h8 (by decide))]
      simp only [readFieldAny, if_neg h1, if_neg h2, if_neg h3, if_neg h4, if_neg h5, if_neg h6, if_neg h7, if_pos h8,
        Option.map_eq_some_iff, list_iff ped_iff]
      constructor
      · rintro ⟨d0, ⟨f1, f2, f3, f4, f5, f6, f7, f8⟩, x, hx, e⟩
        cases e; exact ⟨f1, f2, f3, f4, f5, f6, f7, ⟨_, f8⟩, hx⟩
      · rintro ⟨f1, f2, f3, f4, f5, f6, f7, ⟨y, f8⟩, hx⟩
        exact ⟨⟨x1, x2, x3, x4, x5, x6, x7, y⟩, ⟨f1, f2, f3, f4, f5, f6, f7, f8⟩, _, hx, rfl⟩
    · rw [field_other (no' _ h1 (by decide)), field_other (no' _ h2 (by decide)), field_other (no' _ h3 (by decide)),
        field_other (no' _ h4 (by decide)), field_other (no' _ h5 (by decide)), field_other (no' _ h6 (by decide)),
        field_other (no' _ h7 (by decide)), field_other (no' _ h8 (by decide))]
      simp only [readFieldAny, if_neg h1, if_neg h2, if_neg h3, if_neg h4, if_neg h5, if_neg h6, if_neg h7, if_neg h8,
        Option.some.injEq, exists_eq_right]

/-- C132: a text is read as a record exactly if it is a text of that record. -/
theorem C132_save_text (b : Bytes) (d : SaveAny) : unmarshalAny b = some d ↔ SaveText b d := by
  unfold unmarshalAny SaveText
  constructor
  · intro h
    split at h
    · next hp => cases h; exact .inl ⟨(Json.C130_json _ _).mp hp, rfl⟩
    · next l hp => exact .inr ⟨l, (Json.C130_json _ _).mp hp, (fold_any_iff l d).mp h⟩
    · cases h
  · rintro (⟨hp, rfl⟩ | ⟨l, hp, hf⟩)
    · rw [(Json.C130_json _ _).mpr hp]
    · rw [(Json.C130_json _ _).mpr hp]; exact (fold_any_iff l d).mpr hf

/-- C132: a text stands for one record at most. -/
theorem C132_one_record {b : Bytes} {d d' : SaveAny} (h : SaveText b d) (h' : SaveText b d') : d = d' :=
  Option.some.inj (((C132_save_text b d).mpr h).symm.trans ((C132_save_text b d').mpr h'))

/-- C132: what keygen writes is a text of the record, and of no other. -/
theorem C132_written (d d' : SaveAny) (h : SaveJson.spec.OnTheirCurves d) : SaveText (marshalAny d) d' ↔ d' = d := by
  rw [← C132_save_text, C76_any_round_trip d h]
  exact ⟨fun e => (Option.some.inj e).symm, fun e => by rw [e]⟩

/-- A text no marshaller writes. -/
def saveSample : Bytes :=
  ascii "{\"PrivXi\":7, \"PRIVXI\":8,\"Ks\":[1 ,null],\"PaillierPKs\":[{\"n\":5},null,{}],\"RingPedersenPKs\":[{\"S\":-1}],\"x\":[{}]}"

/-- The members of the sample. -/
def saveSampleMembers : List (Bytes × Json) :=
  [(ascii "PrivXi", .num (ascii "7")), (ascii "PRIVXI", .num (ascii "8")), (ascii "Ks", .arr [.num (ascii "1"), .null]),
    (ascii "PaillierPKs", .arr [.obj [(ascii "n", .num (ascii "5"))], .null, .obj []]),
    (ascii "RingPedersenPKs", .arr [.obj [(ascii "S", .num (ascii "-1"))]]), (ascii "x", .arr [.obj []])]

/-- The hypotheses are met. -/
example : SaveText saveSample ⟨some 8, none, [], [some 1, none], [], none, [some 5, none, some 0], [some (0, -1, 0)]⟩ :=
  .inr ⟨saveSampleMembers, Json.text_of (by decide +kernel), (fold_any_iff _ _).mp (by rfl)⟩

end Tss.SaveJson
