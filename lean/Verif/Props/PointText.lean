import Verif.Props.PointJson
import Verif.Props.JsonGrammar
import Verif.Props.TextExact
/-!
C131: exactly which texts `UnmarshalJSON` of a point accepts, and as which point, against the JSON grammar (C130) and the
numerals (C128).
-/
namespace Tss.SaveJson
open Tss Text RangeProofs

namespace pspec

/-- One spelling of a lower-case letter: itself, its capital, the long s or the Kelvin sign. -/
def Spelling (c : UInt8) (p : Bytes) : Prop :=
  p = [c] ∨ p = [c - 32] ∨ c = 115 ∧ p = [0xC5, 0xBF] ∨ c = 107 ∧ p = [0xE2, 0x84, 0xAA]

/-- A member name names a field (written in lower case), whatever the case. -/
inductive Names : Bytes → Bytes → Prop
  | nil : Names [] []
  | cons {c p s k} : Spelling c p → Names s k → Names (p ++ s) (c :: k)

/-- An integer. -/
def IsInt (e : Json) (z : Int) : Prop := ∃ t, e = .num t ∧ Text.spec.Integer 10 t z

/-- Every member for the field is null or as asked. -/
def Every (k : Bytes) (l : List (Bytes × Json)) (P : Json → Prop) : Prop := ∀ m ∈ l, Names m.1 k → m.2 = .null ∨ P m.2

/-- The last member for the field that is not null. -/
def Last (k : Bytes) (l : List (Bytes × Json)) (v : Json) : Prop :=
  ∃ pre n post, l = pre ++ (n, v) :: post ∧ Names n k ∧ v ≠ .null ∧ Every k post (fun _ => False)

/-- An array whose first two elements, if there, are null or integers. -/
def CoordsLike (v : Json) : Prop := ∃ a, v = .arr a ∧ ∀ e ∈ a.take 2, e = .null ∨ ∃ z, IsInt e z

/-- What the members of an object must be to be read as the point `(x, y)` of the curve `c`; `ec` is the curve of a point without
a curve's name. -/
def PointObj (ec : CurveId) (l : List (Bytes × Json)) (c : CurveId) (x y : Int) : Prop :=
  Every (ascii "curve") l (fun v => ∃ s, v = .str s) ∧ Every (ascii "coords") l CoordsLike ∧
    (Last (ascii "curve") l (.str c.name) ∨
      c = ec ∧ (Last (ascii "curve") l (.str []) ∨ Every (ascii "curve") l fun _ => False)) ∧
    ∃ u v rest, Last (ascii "coords") l (.arr (u :: v :: rest)) ∧ IsInt u x ∧ IsInt v y

/-- What a text must be to be read as a point; `ec` is the global curve. -/
def PointText (ec : CurveId) (b : Bytes) (c : CurveId) (x y : Int) : Prop :=
  ∃ l, Json.gspec.Text b (.obj l) ∧ PointObj ec l c x y

end pspec

open pspec

/-! ### names -/

/-- A lower-case letter. -/
def Lower (c : UInt8) : Prop := 97 ≤ c.toNat ∧ c.toNat ≤ 122

theorem foldName_spelling {c : UInt8} (hc : Lower c) {p : Bytes} (h : Spelling c p) (s : Bytes) :
    Json.foldName (p ++ s) = c :: Json.foldName s := by
  have key : ∀ n : Fin 256, 97 ≤ n.val → n.val ≤ 122 →
      UInt8.ofNat n.val ≠ 0xC5 ∧ UInt8.ofNat n.val ≠ 0xE2 ∧ ¬ (65 ≤ UInt8.ofNat n.val ∧ UInt8.ofNat n.val ≤ 90) ∧
      UInt8.ofNat n.val - 32 ≠ 0xC5 ∧ UInt8.ofNat n.val - 32 ≠ 0xE2 ∧
      (65 ≤ UInt8.ofNat n.val - 32 ∧ UInt8.ofNat n.val - 32 ≤ 90) ∧ UInt8.ofNat n.val - 32 + 32 = UInt8.ofNat n.val := by
    decide +kernel
  obtain ⟨k1, k2, k3, k4, k5, k6, k7⟩ := key ⟨c.toNat, c.toNat_lt⟩ hc.1 hc.2
  have e : UInt8.ofNat c.toNat = c := UInt8.ofNat_toNat
  rw [e] at k1 k2 k3 k4 k5 k6 k7
  rcases h with rfl | rfl | ⟨rfl, rfl⟩ | ⟨rfl, rfl⟩
  · rw [List.cons_append, List.nil_append, Json.foldName.eq_4 _ _ (fun t h _ => k1 h) (fun t h _ => k2 h), if_neg k3]
  · rw [List.cons_append, List.nil_append, Json.foldName.eq_4 _ _ (fun t h _ => k4 h) (fun t h _ => k5 h), if_pos k6, k7]
  · rfl
  · rfl

theorem names_iff {k : Bytes} (hk : ∀ c ∈ k, Lower c) {s : Bytes} : Json.foldName s = k ↔ Names s k := by
  constructor
  · intro h
    induction s using Json.foldName.induct generalizing k with
    | case1 => rw [← h]; exact .nil
    | case2 t ih =>
      rw [Json.foldName] at h
      subst h
      exact .cons (p := [0xC5, 0xBF]) (.inr (.inr (.inl ⟨rfl, rfl⟩))) (ih (fun c hc => hk c (by simp [hc])) rfl)
    | case3 t ih =>
      rw [Json.foldName] at h
      subst h
      exact .cons (p := [0xE2, 0x84, 0xAA]) (.inr (.inr (.inr ⟨rfl, rfl⟩))) (ih (fun c hc => hk c (by simp [hc])) rfl)
    | case4 c t h1 h2 ih =>
      rw [Json.foldName.eq_4 _ _ h1 h2] at h
      subst h
      refine .cons (p := [c]) ?_ (ih (fun c hc => hk c (by simp [hc])) rfl)
      split
      · right; left
        rw [UInt8.add_sub_cancel]
      · exact .inl rfl
  · intro h
    induction h with
    | nil => rfl
    | cons hs _ ih => rw [foldName_spelling (hk _ (by simp)) hs, ih fun c hc => hk c (by simp [hc])]

theorem names_curve {s : Bytes} : Json.foldName s = ascii "curve" ↔ Names s (ascii "curve") :=
  names_iff (by unfold Lower; decide)

theorem names_coords {s : Bytes} : Json.foldName s = ascii "coords" ↔ Names s (ascii "coords") :=
  names_iff (by unfold Lower; decide)

/-! ### the last member -/

theorem every_append {k : Bytes} {l m : List (Bytes × Json)} {P : Json → Prop} : Every k (l ++ m) P ↔ Every k l P ∧ Every k m P := by
  unfold Every
  simp only [List.mem_append]
  exact ⟨fun h => ⟨fun x hx => h x (.inl hx), fun x hx => h x (.inr hx)⟩, fun h x hx => hx.elim (h.1 x) (h.2 x)⟩

theorem every_one {k : Bytes} {m : Bytes × Json} {P : Json → Prop} : Every k [m] P ↔ (Names m.1 k → m.2 = .null ∨ P m.2) := by
  simp [Every]

theorem last_snoc {k : Bytes} {l : List (Bytes × Json)} {m : Bytes × Json} {v : Json} :
    Last k (l ++ [m]) v ↔ (Names m.1 k ∧ m.2 ≠ .null ∧ v = m.2) ∨ (Every k [m] (fun _ => False) ∧ Last k l v) := by
  constructor
  · rintro ⟨pre, n, post, e, hn, hv, hp⟩
    rcases List.eq_nil_or_concat post with rfl | ⟨post, z, rfl⟩
    · obtain ⟨rfl, e2⟩ := List.append_inj' e rfl
      cases e2
      exact .inl ⟨hn, hv, rfl⟩
    · rw [List.concat_eq_append, ← List.cons_append, ← List.append_assoc] at e
      obtain ⟨rfl, e2⟩ := List.append_inj' e rfl
      cases e2
      rw [List.concat_eq_append, every_append] at hp
      exact .inr ⟨hp.2, pre, n, post, rfl, hn, hv, hp.1⟩
  · rintro (⟨hn, hv, rfl⟩ | ⟨hp, pre, n, post, rfl, hn, hv, hq⟩)
    · exact ⟨l, m.1, [], rfl, hn, hv, by intro x hx; cases hx⟩
    · exact ⟨pre, n, post ++ [m], by simp, hn, hv, every_append.mpr ⟨hq, hp⟩⟩

/-! ### the fold -/

theorem readBig_iff {e : Json} {o : Option Int} : readBig e = some o ↔ (e = .null ∧ o = none) ∨ ∃ z, o = some z ∧ IsInt e z := by
  unfold IsInt
  cases e with
  | null => simp [readBig, eq_comm]
  | num t =>
    simp only [readBig]
    constructor
    · intro h
      split at h
      · next z hz => cases h; exact .inr ⟨z, rfl, t, rfl, (C128_integer 10 t z).mp hz⟩
      · cases h
    · rintro (⟨h, _⟩ | ⟨z, rfl, t', ht, hz⟩)
      · cases h
      · cases ht; rw [(C128_integer 10 t z).mpr hz]
  | _ => simp [readBig]

/-- The coordinates an array stands for. -/
def Pair : List Json → Option Int → Option Int → Prop
  | [], x, y => x = none ∧ y = none
  | [u], x, y => readBig u = some x ∧ y = none
  | u :: v :: _, x, y => readBig u = some x ∧ readBig v = some y

theorem pair_exists {a : List Json} (h : CoordsLike (.arr a)) : ∃ x y, Pair a x y := by
  obtain ⟨a', e, h⟩ := h
  cases e
  have r : ∀ e ∈ a.take 2, ∃ o, readBig e = some o := by
    intro e he
    rcases h e he with h | ⟨z, hz⟩
    · exact ⟨none, readBig_iff.mpr (.inl ⟨h, rfl⟩)⟩
    · exact ⟨some z, readBig_iff.mpr (.inr ⟨z, rfl, hz⟩)⟩
  match a, r with
  | [], _ => exact ⟨none, none, rfl, rfl⟩
  | [u], r => obtain ⟨x, hx⟩ := r u (by simp); exact ⟨x, none, hx, rfl⟩
  | u :: v :: _, r =>
    obtain ⟨x, hx⟩ := r u (by simp)
    obtain ⟨y, hy⟩ := r v (by simp)
    exact ⟨x, y, hx, hy⟩

theorem pair_like {a : List Json} {x y : Option Int} (h : Pair a x y) : CoordsLike (.arr a) := by
  have r : ∀ {e : Json} {o : Option Int}, readBig e = some o → e = .null ∨ ∃ z, IsInt e z := fun h => by
    rcases readBig_iff.mp h with ⟨h, _⟩ | ⟨z, _, hz⟩
    · exact .inl h
    · exact .inr ⟨z, hz⟩
  refine ⟨a, rfl, ?_⟩
  match a, h with
  | [], _ => intro e he; cases he
  | [u], h => intro e he; rw [show e = u by simpa using he]; exact r h.1
  | u :: v :: _, h =>
    intro e he
    rcases (by simpa using he : e = u ∨ e = v) with rfl | rfl
    · exact r h.1
    · exact r h.2

theorem readCoords_iff {a a' : Aux} {v : Json} : readCoords a v = some a' ↔
    (v = .null ∧ a' = a) ∨ ∃ l, v = .arr l ∧ a'.curve = a.curve ∧ Pair l a'.x a'.y := by
  obtain ⟨c', x', y'⟩ := a'
  obtain ⟨c, x, y⟩ := a
  cases v with
  | null => simp [readCoords, eq_comm]
  | arr l =>
    simp only [reduceCtorEq, false_and, false_or, Json.arr.injEq, exists_eq_left']
    match l with
    | [] =>
      simp only [readCoords, Pair, Option.some.injEq, Aux.mk.injEq]
      constructor
      · rintro ⟨rfl, rfl, rfl⟩; exact ⟨rfl, rfl, rfl⟩
      · rintro ⟨rfl, rfl, rfl⟩; exact ⟨rfl, rfl, rfl⟩
    | [u] =>
      simp only [readCoords, Pair, Option.map_eq_some_iff, Aux.mk.injEq]
      constructor
      · rintro ⟨w, hw, rfl, rfl, rfl⟩; exact ⟨rfl, hw, rfl⟩
      · rintro ⟨rfl, hw, rfl⟩; exact ⟨_, hw, rfl, rfl, rfl⟩
    | u :: w :: r =>
      simp only [readCoords, Pair]
      constructor
      · intro h
        split at h
        · next a b h1 h2 => cases h; exact ⟨rfl, h1, h2⟩
        · cases h
      · rintro ⟨rfl, h1, h2⟩
        rw [h1, h2]
  | _ => simp [readCoords]

/-- What the fold over the members has found. -/
def Found (l : List (Bytes × Json)) (a : Aux) : Prop :=
  Every (ascii "curve") l (fun v => ∃ s, v = .str s) ∧ Every (ascii "coords") l CoordsLike ∧
  (Last (ascii "curve") l (.str a.curve) ∨ a.curve = [] ∧ Every (ascii "curve") l fun _ => False) ∧
  ((∃ p, Last (ascii "coords") l (.arr p) ∧ Pair p a.x a.y) ∨ a.x = none ∧ a.y = none ∧ Every (ascii "coords") l fun _ => False)

theorem not_both {s : Bytes} (h1 : Names s (ascii "curve")) (h2 : Names s (ascii "coords")) : False := by
  have := (names_curve.mpr h1).symm.trans (names_coords.mpr h2)
  exact absurd this (by decide)

theorem readAux_curve {a a' : Aux} {m : Bytes × Json} (h : Names m.1 (ascii "curve")) :
    readAux a m = some a' ↔ (m.2 = .null ∧ a' = a) ∨ ∃ s, m.2 = .str s ∧ a' = { a with curve := s } := by
  obtain ⟨n, v⟩ := m
  unfold readAux
  rw [if_pos (names_curve.mpr h)]
  cases v <;> simp [eq_comm]

theorem readAux_coords {a : Aux} {m : Bytes × Json} (h : Names m.1 (ascii "coords")) : readAux a m = readCoords a m.2 := by
  unfold readAux
  rw [if_neg (fun e => not_both (names_curve.mp e) h), if_pos (names_coords.mpr h)]

theorem readAux_other {a : Aux} {m : Bytes × Json} (h1 : ¬ Names m.1 (ascii "curve")) (h2 : ¬ Names m.1 (ascii "coords")) :
    readAux a m = some a := by
  unfold readAux
  rw [if_neg (fun e => h1 (names_curve.mp e)), if_neg (fun e => h2 (names_coords.mp e))]

theorem every_mono {k : Bytes} {l : List (Bytes × Json)} {P Q : Json → Prop} (h : Every k l P) (i : ∀ v, P v → Q v) : Every k l Q :=
  fun m hm hn => (h m hm hn).imp id (i _)

theorem last_or_none (k : Bytes) (l : List (Bytes × Json)) : (∃ v, Last k l v) ∨ Every k l fun _ => False := by
  induction l using List.reverseRecOn with
  | nil => right; intro m hm; cases hm
  | append_singleton l m ih =>
    by_cases hm : Every k [m] fun _ => False
    · rcases ih with ⟨v, h⟩ | h
      · exact .inl ⟨v, last_snoc.mpr (.inr ⟨hm, h⟩)⟩
      · exact .inr (every_append.mpr ⟨h, hm⟩)
    · left
      rw [every_one] at hm
      push Not at hm
      exact ⟨m.2, last_snoc.mpr (.inl ⟨hm.1, hm.2.1, rfl⟩)⟩

theorem last_every {k : Bytes} {l : List (Bytes × Json)} {P : Json → Prop} {v : Json} (h : Every k l P) (hv : Last k l v) : P v := by
  obtain ⟨pre, n, post, rfl, hn, hne, -⟩ := hv
  exact (h (n, v) (by simp) hn).resolve_left hne

theorem exists_curve (l : List (Bytes × Json)) (h : Every (ascii "curve") l fun v => ∃ s, v = .str s) :
    ∃ s, Last (ascii "curve") l (.str s) ∨ s = [] ∧ Every (ascii "curve") l fun _ => False := by
  rcases last_or_none (ascii "curve") l with ⟨v, hv⟩ | hn
  · obtain ⟨s, rfl⟩ := last_every h hv
    exact ⟨s, .inl hv⟩
  · exact ⟨[], .inr ⟨rfl, hn⟩⟩

theorem exists_coords (l : List (Bytes × Json)) (h : Every (ascii "coords") l CoordsLike) :
    ∃ x y, (∃ p, Last (ascii "coords") l (.arr p) ∧ Pair p x y) ∨ x = none ∧ y = none ∧ Every (ascii "coords") l fun _ => False := by
  rcases last_or_none (ascii "coords") l with ⟨v, hv⟩ | hn
  · obtain ⟨p, rfl, hp⟩ := last_every h hv
    obtain ⟨x, y, hxy⟩ := pair_exists ⟨p, rfl, hp⟩
    exact ⟨x, y, .inl ⟨p, hv, hxy⟩⟩
  · exact ⟨none, none, .inr ⟨rfl, rfl, hn⟩⟩

theorem found_snoc (l : List (Bytes × Json)) (m : Bytes × Json) (a : Aux) :
    Found (l ++ [m]) a ↔ ∃ a0, Found l a0 ∧ readAux a0 m = some a := by
  unfold Found
  simp only [every_append, last_snoc, every_one]
  by_cases h1 : Names m.1 (ascii "curve")
  · have h2 : ¬ Names m.1 (ascii "coords") := fun h => not_both h1 h
    simp only [readAux_curve h1, h1, h2, true_implies, false_implies, true_and, false_and, false_or, and_true, or_false]
    constructor
    · rintro ⟨⟨g1, g2⟩, g3, g4, g5⟩
      by_cases hm : m.2 = .null
      · refine ⟨a, ⟨g1, g3, ?_, g5⟩, .inl ⟨hm, rfl⟩⟩
        rcases g4 with (⟨h, _⟩ | ⟨_, h⟩) | ⟨h, h', _⟩
        · exact absurd hm h
        · exact .inl h
        · exact .inr ⟨h, h'⟩
      · obtain ⟨s, hs⟩ := g2.resolve_left hm
        rcases g4 with (⟨_, h⟩ | ⟨h, _⟩) | ⟨_, _, h⟩
        · rw [hs] at h
          cases h
          rcases exists_curve l g1 with ⟨s0, h0⟩
          exact ⟨{ a with curve := s0 }, ⟨g1, g3, h0, g5⟩, .inr ⟨_, hs, rfl⟩⟩
        · exact absurd h hm
        · exact absurd h hm
    · rintro ⟨a0, ⟨g1, g3, g4, g5⟩, ⟨hm, rfl⟩ | ⟨s, hs, rfl⟩⟩
      · refine ⟨⟨g1, .inl hm⟩, g3, ?_, g5⟩
        rcases g4 with h | ⟨h, h'⟩
        · exact .inl (.inr ⟨hm, h⟩)
        · exact .inr ⟨h, h', hm⟩
      · exact ⟨⟨g1, .inr ⟨s, hs⟩⟩, g3, .inl (.inl ⟨by rw [hs]; simp, hs.symm⟩), g5⟩
  by_cases h2 : Names m.1 (ascii "coords")
  · simp only [readAux_coords h2, readCoords_iff, h1, h2, true_implies, false_implies, true_and, false_and, false_or, and_true,
      or_false]
    constructor
    · rintro ⟨g1, ⟨g2, g3⟩, g4, g5⟩
      by_cases hm : m.2 = .null
      · refine ⟨a, ⟨g1, g2, g4, ?_⟩, .inl ⟨hm, rfl⟩⟩
        rcases g5 with ⟨p, ⟨h, _⟩ | ⟨_, h⟩, hp⟩ | ⟨h, h', h'', _⟩
        · exact absurd hm h
        · exact .inl ⟨p, h, hp⟩
        · exact .inr ⟨h, h', h''⟩
      · rcases g5 with ⟨p, ⟨_, h⟩ | ⟨h, _⟩, hp⟩ | ⟨_, _, _, h⟩
        · obtain ⟨x0, y0, h0⟩ := exists_coords l g2
          exact ⟨⟨a.curve, x0, y0⟩, ⟨g1, g2, g4, h0⟩, .inr ⟨p, h.symm, rfl, hp⟩⟩
        · exact absurd h hm
        · exact absurd h hm
    · rintro ⟨a0, ⟨g1, g2, g4, g5⟩, ⟨hm, rfl⟩ | ⟨p, hs, hc, hp⟩⟩
      · refine ⟨g1, ⟨g2, .inl hm⟩, g4, ?_⟩
        rcases g5 with ⟨p, h, hp⟩ | ⟨h, h', h''⟩
        · exact .inl ⟨p, .inr ⟨hm, h⟩, hp⟩
        · exact .inr ⟨h, h', h'', hm⟩
      · rw [hc]
        exact ⟨g1, ⟨g2, .inr (by rw [hs]; exact pair_like hp)⟩, g4, .inl ⟨p, .inl ⟨by rw [hs]; simp, hs.symm⟩, hp⟩⟩
  · simp only [readAux_other h1 h2, h1, h2, false_implies, true_and, false_and, false_or, and_true, Option.some.injEq,
      exists_eq_right]

theorem fold_iff (l : List (Bytes × Json)) (a : Aux) : l.foldlM readAux ⟨[], none, none⟩ = some a ↔ Found l a := by
  induction l using List.reverseRecOn generalizing a with
  | nil =>
    have hE : ∀ k P, Every k [] P := fun k P m hm => by cases hm
    have hL : ∀ k v, ¬ Last k [] v := by
      rintro k v ⟨pre, n, post, e, -⟩
      cases pre <;> cases e
    obtain ⟨c, x, y⟩ := a
    simp only [List.foldlM_nil, Found, hE, hL, true_and, false_or, false_and, exists_false, and_true, Option.pure_def,
      Option.some.injEq, Aux.mk.injEq]
    constructor
    · rintro ⟨rfl, rfl, rfl⟩; exact ⟨rfl, rfl, rfl⟩
    · rintro ⟨rfl, rfl, rfl⟩; exact ⟨rfl, rfl, rfl⟩
  | append_singleton l m ih =>
    rw [List.foldlM_append, found_snoc]
    simp only [List.foldlM_cons, List.foldlM_nil, Option.bind_eq_bind, Option.pure_def, Option.bind_eq_some_iff,
      Option.some.injEq, ih]
    constructor
    · rintro ⟨a0, h0, a1, h1, rfl⟩; exact ⟨a0, h0, h1⟩
    · rintro ⟨a0, h0, h1⟩; exact ⟨a0, h0, a, h1, rfl⟩

theorem curveByName_iff {n : Bytes} {c : CurveId} : curveByName n = some c ↔ n = c.name := by
  unfold curveByName
  constructor
  · intro h
    split at h
    · next e => cases h; exact e
    split at h
    · next e => cases h; exact e
    · cases h
  · rintro rfl; cases c <;> decide

/-- The object case of the readers of points. -/
def readPointObj (ec : CurveId) (l : List (Bytes × Json)) : Option CPoint :=
  match l.foldlM readAux ⟨[], none, none⟩ with
  | none => none
  | some a =>
    match (if a.curve = [] then some ec else curveByName a.curve) with
    | none => none
    | some c =>
      match a.x, a.y with
      | some x, some y => if c.curve.isOnCurve x y then some ⟨c, ⟨x, y⟩⟩ else none
      | _, _ => none

theorem pointObj_iff (ec : CurveId) (l : List (Bytes × Json)) (q : CPoint) : readPointObj ec l = some q ↔
    PointObj ec l q.c q.p.x q.p.y ∧ q.c.curve.isOnCurve q.p.x q.p.y = true := by
  have hint : ∀ {e : Json} {z : Int}, readBig e = some (some z) ↔ IsInt e z := by
    intro e z
    rw [readBig_iff]
    constructor
    · rintro (⟨_, h⟩ | ⟨w, h, hw⟩)
      · cases h
      · cases h; exact hw
    · intro h; exact .inr ⟨z, rfl, h⟩
  unfold readPointObj
  constructor
  · intro h
    split at h
    · cases h
    next a ha =>
    split at h
    · cases h
    next c hc =>
    split at h
    · next x y hx hy =>
      split at h
      · next hon =>
        cases h
        obtain ⟨g1, g2, g3, g4⟩ := (fold_iff l a).mp ha
        refine ⟨⟨g1, g2, ?_, ?_⟩, hon⟩
        · by_cases he : a.curve = []
          · rw [if_pos he] at hc
            cases hc
            right
            rw [he] at g3
            exact ⟨rfl, g3.imp id And.right⟩
          · rw [if_neg he] at hc
            rw [curveByName_iff.mp hc] at g3
            rcases g3 with h | ⟨h, _⟩
            · exact .inl h
            · exact absurd h (by cases c <;> decide)
        · rw [hx, hy] at g4
          rcases g4 with ⟨p, hp, hP⟩ | ⟨h, _⟩
          · match p, hP with
            | [], hP => cases hP.1
            | [u], hP => cases hP.2
            | u :: v :: rest, hP => exact ⟨u, v, rest, hp, hint.mp hP.1, hint.mp hP.2⟩
          · cases h
      · cases h
    · cases h
  · rintro ⟨⟨g1, g2, hc, u, v, rest, hp, hu, hv⟩, hon⟩
    have core : ∀ n, (Last (ascii "curve") l (.str n) ∨ n = [] ∧ Every (ascii "curve") l fun _ => False) →
        (if n = [] then some ec else curveByName n) = some q.c → readPointObj ec l = some q := by
      intro n hn he
      have ha : l.foldlM readAux ⟨[], none, none⟩ = some ⟨n, some q.p.x, some q.p.y⟩ :=
        (fold_iff l _).mpr ⟨g1, g2, hn, .inl ⟨_, hp, hint.mpr hu, hint.mpr hv⟩⟩
      unfold readPointObj
      simp only [ha, he, if_pos hon]
    rcases hc with h | ⟨hq, h⟩
    · exact core q.c.name (.inl h) (byName_any ec q.c)
    · exact core [] (h.imp id fun h => ⟨rfl, h⟩) (by rw [if_pos rfl, hq])

/-- C131: a text is read as a point exactly if it is a text of that point. -/
theorem C131_point_text (ec : CurveId) (b : Bytes) (q : CPoint) : unmarshalPoint ec b = .ok q ↔
    PointText ec b q.c q.p.x q.p.y ∧ q.c.curve.isOnCurve q.p.x q.p.y = true := by
  have obj : unmarshalPoint ec b = .ok q ↔ ∃ l, Json.parse b = some (.obj l) ∧ readPointObj ec l = some q := by
    unfold unmarshalPoint readPointObj
    constructor
    · intro h
      split at h
      · cases h
      · cases h
      next l hl =>
        refine ⟨l, hl, ?_⟩
        split at h
        · cases h
        next a ha =>
        rw [ha]
        simp only
        split at h
        · cases h
        next c hc =>
        rw [hc]
        simp only
        split at h
        · next x y hx hy =>
          split at h
          · next hon => cases h; rw [hx, hy]; simp only [if_pos hon]
          · cases h
        · cases h
      · cases h
    · rintro ⟨l, hl, h⟩
      rw [hl]
      simp only
      split at h
      · cases h
      next a ha =>
      rw [ha]
      simp only
      split at h
      · cases h
      next c hc =>
      rw [hc]
      simp only
      split at h
      · next x y hx hy =>
        split at h
        · next hon => cases h; rw [hx, hy]; simp only [if_pos hon]
        · cases h
      · cases h
  rw [obj]
  unfold PointText
  constructor
  · rintro ⟨l, hl, h⟩
    obtain ⟨h1, h2⟩ := (pointObj_iff ec l q).mp h
    exact ⟨⟨l, (Json.C130_json _ _).mp hl, h1⟩, h2⟩
  · rintro ⟨⟨l, hl, h1⟩, h2⟩
    exact ⟨l, (Json.C130_json _ _).mpr hl, (pointObj_iff ec l q).mpr ⟨h1, h2⟩⟩

/-- C131: the text of a point is a text of that point in this sense, and of no other. -/
theorem C131_written (ec : CurveId) (q : CPoint) (h : q.c.curve.isOnCurve q.p.x q.p.y = true) (c : CurveId) (x y : Int)
    (hon : c.curve.isOnCurve x y = true) : PointText ec (marshalPoint q) c x y ↔ c = q.c ∧ x = q.p.x ∧ y = q.p.y := by
  have hr := C27_text_round_trip ec q h [] (by simp)
  rw [List.append_nil] at hr
  constructor
  · intro hp
    have := (C131_point_text ec (marshalPoint q) ⟨c, ⟨x, y⟩⟩).mpr ⟨hp, hon⟩
    rw [hr] at this
    cases this
    exact ⟨rfl, rfl, rfl⟩
  · rintro ⟨rfl, rfl, rfl⟩
    exact ((C131_point_text ec (marshalPoint q) q).mp hr).1

/-- C131: nothing else happens than a point, an error, or, for the text `null` between white space, a crash. -/
theorem C131_crash (ec : CurveId) (b : Bytes) : unmarshalPoint ec b = .panic ↔
    ∃ p r, b = p ++ (ascii "null" ++ r) ∧ Json.gspec.Ws p ∧ Json.gspec.Ws r := by
  rw [C27_text_panics_iff, Json.C130_json]
  constructor
  · rintro ⟨p, r, rfl, hp, hr⟩
    cases hp with
    | null hp => exact ⟨_, r, by simp, hp, hr⟩
  · rintro ⟨p, r, rfl, hp, hr⟩
    exact ⟨p ++ ascii "null", r, by simp, .null hp, hr⟩

/-- A text with capitals, a repeated, a null and an unknown member and the long s: the neutral point of Ed25519. -/
def sampleText : Bytes :=
  ascii "{\"CURVE\":\"secp256k1\", \"coord" ++ [0xC5, 0xBF] ++ ascii "\":[-0,1,true] ,\"curve\":\"ed25519\",\"Curve\":null,\"z\":1e9}"

theorem point_of {ec : CurveId} {b : Bytes} {q : CPoint}
    (h : (match unmarshalPoint ec b with | .ok q' => decide (q' = q) | _ => false) = true) : PointText ec b q.c q.p.x q.p.y := by
  refine ((C131_point_text ec b q).mp ?_).1
  split at h
  · next q' e => rw [e, of_decide_eq_true h]
  · cases h

/-- The sample is a text of the neutral point. -/
example : PointText .secp256k1 sampleText .ed25519 0 1 :=
  point_of (q := ⟨.ed25519, ⟨0, 1⟩⟩) (by decide +kernel)

end Tss.SaveJson
