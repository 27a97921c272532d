import Verif.Model.SaveData
import Verif.Lemmas.Go
import Verif.Lemmas.Text
import Mathlib.Order.Monotone.Basic
/-
Property C59: restricting save data to the signing parties.
-/
namespace Tss.Keygen
open Tss Text

theorem hexEncode_inj {a b : Bytes} (h : hexEncode a = hexEncode b) : a = b := by
  have := congrArg hexDecode h
  simpa [hex_round_trip] using this

/-- The map built from a key list: the last position carrying the key. -/
theorem keysToIndices_spec : ∀ (l : List (Option Int)) (j : Nat) (m0 : Bytes → Option Nat), (∀ k ∈ l, k ≠ none) →
    ∃ m, keysToIndices l j m0 = some m ∧
      ∀ b, (∃ s, s < l.length ∧ m b = some (j + s) ∧ (∃ k, l[s]? = some (some k) ∧ b = hexEncode (intBytes k)) ∧
              ∀ s', s < s' → s' < l.length → ∀ k, l[s']? = some (some k) → b ≠ hexEncode (intBytes k)) ∨
           (m b = m0 b ∧ ∀ (s : Nat) (k : Int), l[s]? = some (some k) → b ≠ hexEncode (intBytes k))
  | [], j, m0, _ => ⟨m0, rfl, fun b => .inr ⟨rfl, by simp⟩⟩
  | none :: _, _, _, h => absurd rfl (h none (by simp))
  | some k :: t, j, m0, h => by
    obtain ⟨m, hm, hs⟩ := keysToIndices_spec t (j + 1) (fun b => if b = hexEncode (intBytes k) then some j else m0 b)
      (fun k hk => h k (by simp [hk]))
    refine ⟨m, hm, fun b => ?_⟩
    rcases hs b with ⟨s, h1, h2, ⟨k', h3, h3'⟩, h4⟩ | ⟨h1, h2⟩
    · refine .inl ⟨s + 1, by simp; omega, by rw [h2]; congr 1; omega, ⟨k', by simpa using h3, h3'⟩, ?_⟩
      intro s' hs' hl k'' hk''
      obtain ⟨s'', rfl⟩ : ∃ s'', s' = s'' + 1 := ⟨s' - 1, by omega⟩
      exact h4 s'' (by omega) (by simpa using hl) k'' (by simpa using hk'')
    · by_cases hb : b = hexEncode (intBytes k)
      · refine .inl ⟨0, by simp, by rw [h1, if_pos hb]; rfl, ⟨k, by simp, hb⟩, ?_⟩
        intro s' hs' hl k'' hk''
        obtain ⟨s'', rfl⟩ : ∃ s'', s' = s'' + 1 := ⟨s' - 1, by omega⟩
        exact h2 s'' k'' (by simpa using hk'')
      · refine .inr ⟨by rw [h1, if_neg hb], ?_⟩
        intro s k'' hk''
        cases s with
        | zero => simp at hk''; subst hk''; exact hb
        | succ s => exact h2 s k'' (by simpa using hk'')

theorem buildLoop_ok (src : SaveData) (m : Bytes → Option Nat) (f : Nat → Nat) :
    ∀ (ids : List PartyID) (j : Nat) (d : SaveData),
    (∀ t id, ids[t]? = some id → m (hexEncode (id.key.getD [])) = some (f (j + t)) ∧ j + t ≤ f (j + t) ∧
      f (j + t) < src.ks.length ∧ f (j + t) < src.pubXj.length ∧ f (j + t) < src.paillierPKs.length ∧
      f (j + t) < src.ringPedersenPKs.length) →
    (∀ l, j ≤ l → d.ks[l]? = src.ks[l]? ∧ d.pubXj[l]? = src.pubXj[l]?) →
    j + ids.length ≤ d.paillierPKs.length → j + ids.length ≤ d.ringPedersenPKs.length →
    ∃ d', buildLoop src m j ids d = .ok d' ∧ d'.privXi = d.privXi ∧ d'.shareID = d.shareID ∧
      d'.chainCodes = d.chainCodes ∧ d'.eddsaPub = d.eddsaPub ∧
      ∀ l, (j ≤ l ∧ l < j + ids.length →
          d'.ks[l]? = src.ks[f l]? ∧ d'.pubXj[l]? = src.pubXj[f l]? ∧ d'.paillierPKs[l]? = src.paillierPKs[f l]? ∧
          d'.ringPedersenPKs[l]? = src.ringPedersenPKs[f l]?) ∧
        (¬ (j ≤ l ∧ l < j + ids.length) →
          d'.ks[l]? = d.ks[l]? ∧ d'.pubXj[l]? = d.pubXj[l]? ∧ d'.paillierPKs[l]? = d.paillierPKs[l]? ∧
          d'.ringPedersenPKs[l]? = d.ringPedersenPKs[l]?)
  | [], j, d, _, _, _, _ => ⟨d, rfl, rfl, rfl, rfl, rfl, fun l => ⟨fun h => by simp at h; omega, fun _ => ⟨rfl, rfl, rfl, rfl⟩⟩⟩
  | id :: t, j, d, hf, hd, hp, hr => by
    obtain ⟨h1, h2, h3, h4, h5, h6⟩ := hf 0 id rfl
    simp only [Nat.add_zero] at h1 h2 h3 h4 h5 h6
    unfold buildLoop
    rw [h1]
    obtain ⟨e1, e2⟩ := hd (f j) h2
    simp only [e1, e2, List.getElem?_eq_getElem h3, List.getElem?_eq_getElem h4, List.getElem?_eq_getElem h5,
      List.getElem?_eq_getElem h6]
    have lk : j < d.ks.length := by
      by_contra hc
      have := (hd j le_rfl).1
      rw [List.getElem?_eq_none (by omega), List.getElem?_eq_getElem (by omega)] at this
      exact nomatch this
    have lp : j < d.pubXj.length := by
      by_contra hc
      have := (hd j le_rfl).2
      rw [List.getElem?_eq_none (by omega), List.getElem?_eq_getElem (by omega)] at this
      exact nomatch this
    simp only [List.length_cons] at hp hr ⊢
    rw [if_pos ⟨lk, lp, by omega, by omega⟩]
    obtain ⟨d', g1, g2, g3, g4, g5, g6⟩ := buildLoop_ok src m f t (j + 1) { d with
      ks := d.ks.set j src.ks[f j]
      pubXj := d.pubXj.set j src.pubXj[f j]
      paillierPKs := d.paillierPKs.set j src.paillierPKs[f j]
      ringPedersenPKs := d.ringPedersenPKs.set j src.ringPedersenPKs[f j] }
      (fun t' id' h => by
        have := hf (t' + 1) id' (by simpa using h)
        rw [show j + (t' + 1) = j + 1 + t' by omega] at this
        exact this)
      (fun l hl => by
        simp only [List.getElem?_set_ne (show j ≠ l by omega)]
        exact hd l (by omega))
      (by simp; omega) (by simp; omega)
    refine ⟨d', g1, g2, g3, g4, g5, fun l => ?_⟩
    obtain ⟨k1, k2⟩ := g6 l
    constructor
    · intro hl
      by_cases hlj : l = j
      · subst hlj
        have := k2 (by omega)
        simp only at this
        rw [this.1, this.2.1, this.2.2.1, this.2.2.2]
        refine ⟨?_, ?_, ?_, ?_⟩
        · rw [List.getElem?_set_self lk, List.getElem?_eq_getElem h3]
        · rw [List.getElem?_set_self lp, List.getElem?_eq_getElem h4]
        · rw [List.getElem?_set_self (by omega), List.getElem?_eq_getElem h5]
        · rw [List.getElem?_set_self (by omega), List.getElem?_eq_getElem h6]
      · exact k1 (by omega)
    · intro hl
      have := k2 (by omega)
      simp only [List.getElem?_set_ne (show j ≠ l by omega)] at this
      exact this

/-- Save data as key generation and refresh leave it: all keys present and pairwise different as byte strings, one
public share, Paillier key and ring-Pedersen key per key. -/
structure spec.Consistent (d : SaveData) : Prop where
  present : ∀ k ∈ d.ks, k ≠ none
  distinct : ∀ (i j : Nat) (a b : Int), d.ks[i]? = some (some a) → d.ks[j]? = some (some b) → intBytes a = intBytes b → i = j
  pub : d.pubXj.length = d.ks.length
  pai : d.paillierPKs.length = d.ks.length
  ring : d.ringPedersenPKs.length = d.ks.length

theorem spec.Consistent.key {d : SaveData} (h : spec.Consistent d) {i : Nat} (hi : i < d.ks.length) :
    ∃ k, d.ks[i]? = some (some k) := by
  have e := List.getElem?_eq_getElem hi
  rw [e]
  cases hk : d.ks[i] with
  | none => exact absurd hk (h.present _ (List.getElem_mem hi))
  | some k => exact ⟨k, rfl⟩

theorem keysToIndices_of {ks : List (Option Int)} (hp : ∀ k ∈ ks, k ≠ none)
    (hd : ∀ (i j : Nat) (a b : Int), ks[i]? = some (some a) → ks[j]? = some (some b) → intBytes a = intBytes b → i = j) :
    ∃ m, keysToIndices ks 0 (fun _ => none) = some m ∧
      (∀ (s : Nat) (k : Int), ks[s]? = some (some k) → m (hexEncode (intBytes k)) = some s) ∧
      (∀ b, (∀ (s : Nat) (k : Int), ks[s]? = some (some k) → b ≠ intBytes k) → m (hexEncode b) = none) := by
  obtain ⟨m, hm, hs⟩ := keysToIndices_spec ks 0 (fun _ => none) hp
  refine ⟨m, hm, ?_, ?_⟩
  · intro s k hk
    rcases hs (hexEncode (intBytes k)) with ⟨s', h1, h2, ⟨k', h3, h3'⟩, h4⟩ | ⟨h1, h2⟩
    · have := hd s s' k k' hk h3 (hexEncode_inj h3')
      subst this
      simpa using h2
    · exact absurd rfl (h2 s k hk)
  · intro b hb
    rcases hs (hexEncode b) with ⟨s', h1, h2, ⟨k', h3, h3'⟩, h4⟩ | ⟨h1, h2⟩
    · exact absurd (hexEncode_inj h3') (hb s' k' h3)
    · exact h1

theorem keysToIndices_at {d : SaveData} (h : spec.Consistent d) :
    ∃ m, keysToIndices d.ks 0 (fun _ => none) = some m ∧
      (∀ (s : Nat) (k : Int), d.ks[s]? = some (some k) → m (hexEncode (intBytes k)) = some s) ∧
      (∀ b, (∀ (s : Nat) (k : Int), d.ks[s]? = some (some k) → b ≠ intBytes k) → m (hexEncode b) = none) :=
  keysToIndices_of h.present h.distinct

/-- With Paillier and ring-Pedersen lists for the requested ids only, and those ids the first ones of the data, the
function is the identity. -/
theorem prefix_identity (src : SaveData) (ids : List PartyID) (hp : ∀ k ∈ src.ks, k ≠ none)
    (hd : ∀ (i j : Nat) (a b : Int), src.ks[i]? = some (some a) → src.ks[j]? = some (some b) → intBytes a = intBytes b → i = j)
    (hpub : src.pubXj.length = src.ks.length) (hle : ids.length ≤ src.ks.length)
    (hpai : src.paillierPKs.length = ids.length) (hring : src.ringPedersenPKs.length = ids.length)
    (hid : ∀ (j : Nat) (id : PartyID), ids[j]? = some id → ∃ k, src.ks[j]? = some (some k) ∧ id.key = some (intBytes k)) :
    BuildLocalSaveDataSubset src ids = .ok src := by
  obtain ⟨m, hm, hk, -⟩ := keysToIndices_of hp hd
  unfold BuildLocalSaveDataSubset
  rw [hm]
  obtain ⟨d, g1, g2, g3, g4, g5, g6⟩ := buildLoop_ok src m (fun j => j) ids 0 { src with
      paillierPKs := List.replicate ids.length none
      ringPedersenPKs := List.replicate ids.length none }
    (fun t id ht => by
      obtain ⟨k, hk1, hk2⟩ := hid t id ht
      have hl : t < ids.length := (List.getElem?_eq_some_iff.1 ht).1
      rw [Nat.zero_add, hk2]
      exact ⟨hk _ _ hk1, le_rfl, by omega, by omega, by omega, by omega⟩)
    (fun l _ => ⟨rfl, rfl⟩) (by simp) (by simp)
  simp only
  rw [g1]
  have e1 : d.ks = src.ks := by
    apply List.ext_getElem?; intro l
    by_cases hl : l < ids.length
    · exact ((g6 l).1 ⟨by omega, by omega⟩).1
    · exact ((g6 l).2 (by omega)).1
  have e2 : d.pubXj = src.pubXj := by
    apply List.ext_getElem?; intro l
    by_cases hl : l < ids.length
    · exact ((g6 l).1 ⟨by omega, by omega⟩).2.1
    · exact ((g6 l).2 (by omega)).2.1
  have e3 : d.paillierPKs = src.paillierPKs := by
    apply List.ext_getElem?; intro l
    by_cases hl : l < ids.length
    · exact ((g6 l).1 ⟨by omega, by omega⟩).2.2.1
    · rw [((g6 l).2 (by omega)).2.2.1, List.getElem?_eq_none (by simp; omega), List.getElem?_eq_none (by omega)]
  have e4 : d.ringPedersenPKs = src.ringPedersenPKs := by
    apply List.ext_getElem?; intro l
    by_cases hl : l < ids.length
    · exact ((g6 l).1 ⟨by omega, by omega⟩).2.2.2
    · rw [((g6 l).2 (by omega)).2.2.2, List.getElem?_eq_none (by simp; omega), List.getElem?_eq_none (by omega)]
  congr 1
  cases d; cases src
  simp only at g2 g3 g4 g5 e1 e2 e3 e4
  simp only [g2, g3, g4, g5, e1, e2, e3, e4]

theorem buildLoop_panics (src : SaveData) (m : Bytes → Option Nat) (f : Nat → Nat) :
    ∀ (ids : List PartyID) (j : Nat) (d : SaveData),
    (∀ t id, ids[t]? = some id → m (hexEncode (id.key.getD [])) = some (f (j + t))) →
    (∃ t, t < ids.length ∧ src.paillierPKs.length ≤ f (j + t)) → buildLoop src m j ids d = .panic
  | [], _, _, _, ⟨_, h, _⟩ => by simp at h
  | id :: t, j, d, hf, ⟨u, hu, hx⟩ => by
    have h1 := hf 0 id rfl
    rw [Nat.add_zero] at h1
    unfold buildLoop
    rw [h1]
    simp only
    by_cases hb : src.paillierPKs.length ≤ f j
    · rw [List.getElem?_eq_none hb]
      split
      · simp_all
      · rfl
    · have hu0 : u ≠ 0 := by rintro rfl; exact hb hx
      obtain ⟨v, rfl⟩ : ∃ v, u = v + 1 := ⟨u - 1, by omega⟩
      split
      · split
        · refine buildLoop_panics src m f t (j + 1) _ (fun t' id' h => ?_) ⟨v, by simpa using hu, ?_⟩
          · have := hf (t' + 1) id' (by simpa using h)
            rw [show j + (t' + 1) = j + 1 + t' by omega] at this
            exact this
          · rw [show j + (v + 1) = j + 1 + v by omega] at hx
            exact hx
        · rfl
      · rfl

/-- With Paillier and ring-Pedersen lists for the requested ids only, one requested id beyond those positions is a panic. -/
theorem beyond_panics (src : SaveData) (ids : List PartyID) (f : Nat → Nat) (hp : ∀ k ∈ src.ks, k ≠ none)
    (hd : ∀ (i j : Nat) (a b : Int), src.ks[i]? = some (some a) → src.ks[j]? = some (some b) → intBytes a = intBytes b → i = j)
    (hid : ∀ (j : Nat) (id : PartyID), ids[j]? = some id → ∃ k, src.ks[f j]? = some (some k) ∧ id.key = some (intBytes k))
    (hb : ∃ j, j < ids.length ∧ src.paillierPKs.length ≤ f j) : BuildLocalSaveDataSubset src ids = .panic := by
  obtain ⟨m, hm, hk, -⟩ := keysToIndices_of hp hd
  unfold BuildLocalSaveDataSubset
  rw [hm]
  refine buildLoop_panics src m f ids 0 _ (fun t id ht => ?_) (by simpa using hb)
  obtain ⟨k, hk1, hk2⟩ := hid t id ht
  rw [Nat.zero_add, hk2]
  exact hk _ _ hk1

/-- C59: if the requested ids are, in order, those at the positions `f 0 < f 1 < …` of the save data (both lists are
sorted by key), the call succeeds; position `j` of the result carries the key, public share, Paillier key and
ring-Pedersen key of position `f j`; the Paillier and ring-Pedersen lists have exactly one entry per requested id; but
the key and share lists keep their full length, with the source's own entries left beyond the requested ones. -/
theorem C59_subset_exact (src : SaveData) (h : spec.Consistent src) (ids : List PartyID) (f : Nat → Nat)
    (hmono : ∀ i j, i < j → j < ids.length → f i < f j) (hlt : ∀ j, j < ids.length → f j < src.ks.length)
    (hid : ∀ (j : Nat) (id : PartyID), ids[j]? = some id → ∃ k, src.ks[f j]? = some (some k) ∧ id.key = some (intBytes k)) :
    ∃ d, BuildLocalSaveDataSubset src ids = .ok d ∧
      d.privXi = src.privXi ∧ d.shareID = src.shareID ∧ d.chainCodes = src.chainCodes ∧ d.eddsaPub = src.eddsaPub ∧
      (∀ j, j < ids.length → d.ks[j]? = src.ks[f j]? ∧ d.pubXj[j]? = src.pubXj[f j]? ∧
        d.paillierPKs[j]? = src.paillierPKs[f j]? ∧ d.ringPedersenPKs[j]? = src.ringPedersenPKs[f j]?) ∧
      d.paillierPKs.length = ids.length ∧ d.ringPedersenPKs.length = ids.length ∧
      d.ks.length = src.ks.length ∧ d.pubXj.length = src.pubXj.length ∧
      (∀ l, ids.length ≤ l → d.ks[l]? = src.ks[l]? ∧ d.pubXj[l]? = src.pubXj[l]?) := by
  obtain ⟨m, hm, hk, -⟩ := keysToIndices_at h
  unfold BuildLocalSaveDataSubset
  rw [hm]
  have hge : ∀ j, j < ids.length → j ≤ f j := by
    intro j
    induction j with
    | zero => intro _; omega
    | succ j ih => intro hj; have := hmono j (j + 1) (by omega) hj; have := ih (by omega); omega
  obtain ⟨d, g1, g2, g3, g4, g5, g6⟩ := buildLoop_ok src m f ids 0 { src with
      paillierPKs := List.replicate ids.length none
      ringPedersenPKs := List.replicate ids.length none }
    (fun t id ht => by
      obtain ⟨k, hk1, hk2⟩ := hid t id ht
      have hl : t < ids.length := (List.getElem?_eq_some_iff.1 ht).1
      have := hlt t hl
      rw [Nat.zero_add, hk2]
      exact ⟨hk _ _ hk1, hge t hl, this, by rw [h.pub]; exact this, by rw [h.pai]; exact this, by rw [h.ring]; exact this⟩)
    (fun l _ => ⟨rfl, rfl⟩) (by simp) (by simp)
  have len : ∀ {α β : Type} (a : List α) (b : List β), (∀ l : Nat, a.length ≤ l → b[l]? = none) → (∀ l : Nat, l < a.length → b[l]? ≠ none) → b.length = a.length := by
    intro α β a b h1 h2
    have e1 := List.getElem?_eq_none_iff.1 (h1 a.length le_rfl)
    by_contra hc
    exact h2 b.length (by omega) (List.getElem?_eq_none_iff.2 le_rfl)
  have main : ∀ j, j < ids.length → d.ks[j]? = src.ks[f j]? ∧ d.pubXj[j]? = src.pubXj[f j]? ∧
        d.paillierPKs[j]? = src.paillierPKs[f j]? ∧ d.ringPedersenPKs[j]? = src.ringPedersenPKs[f j]? :=
    fun j hj => (g6 j).1 ⟨by omega, by omega⟩
  have rest : ∀ l, ids.length ≤ l → d.ks[l]? = src.ks[l]? ∧ d.pubXj[l]? = src.pubXj[l]? ∧
      d.paillierPKs[l]? = none ∧ d.ringPedersenPKs[l]? = none := by
    intro l hl
    obtain ⟨a, b, c, e⟩ := (g6 l).2 (by omega)
    refine ⟨a, b, c.trans ?_, e.trans ?_⟩ <;> rw [List.getElem?_replicate, if_neg (by omega)]
  have somes : ∀ {α : Type} (l : List α) (i : Nat), i < l.length → l[i]? ≠ none := by
    intro α l i hi; rw [List.getElem?_eq_getElem hi]; simp
  refine ⟨d, g1, g2, g3, g4, g5, main, ?_, ?_, ?_, ?_, fun l hl => ⟨(rest l hl).1, (rest l hl).2.1⟩⟩
  · rw [len ids d.paillierPKs (fun l hl => (rest l hl).2.2.1) (fun l hl => ?_)]
    rw [(main l hl).2.2.1]
    exact somes _ _ (by rw [h.pai]; exact hlt l hl)
  · rw [len ids d.ringPedersenPKs (fun l hl => (rest l hl).2.2.2) (fun l hl => ?_)]
    rw [(main l hl).2.2.2]
    exact somes _ _ (by rw [h.ring]; exact hlt l hl)
  · refine len _ _ (fun l hl => ?_) (fun l hl => ?_)
    · by_cases hi : l < ids.length
      · have := hlt l hi; have := hge l hi; omega
      · rw [(rest l (by omega)).1]; exact List.getElem?_eq_none hl
    · by_cases hi : l < ids.length
      · rw [(main l hi).1]; exact somes _ _ (hlt l hi)
      · rw [(rest l (by omega)).1]; exact somes _ _ hl
  · refine len _ _ (fun l hl => ?_) (fun l hl => ?_)
    · by_cases hi : l < ids.length
      · have := hlt l hi; have := hge l hi; rw [h.pub] at hl; omega
      · rw [(rest l (by omega)).2.1]; exact List.getElem?_eq_none hl
    · by_cases hi : l < ids.length
      · rw [(main l hi).2.1]; exact somes _ _ (by rw [h.pub]; exact hlt l hi)
      · rw [(rest l (by omega)).2.1]; exact somes _ _ hl

/-- C59: with the full list of ids the function is the identity. -/
theorem C59_full_identity (src : SaveData) (h : spec.Consistent src) (ids : List PartyID)
    (hlen : ids.length = src.ks.length)
    (hid : ∀ (j : Nat) (id : PartyID), ids[j]? = some id → ∃ k, src.ks[j]? = some (some k) ∧ id.key = some (intBytes k)) :
    BuildLocalSaveDataSubset src ids = .ok src := by
  obtain ⟨d, h0, h1, h2, h3, h4, h5, h6, h7, h8, h9, -⟩ := C59_subset_exact src h ids id (fun i j hij _ => hij)
    (fun j hj => by simp only [id]; omega) hid
  rw [h0]
  have a1 : d.ks = src.ks := by
    apply List.ext_getElem? ; intro l
    by_cases hl : l < ids.length
    · exact (h5 l hl).1
    · rw [List.getElem?_eq_none (by omega), List.getElem?_eq_none (by omega)]
  have a2 : d.pubXj = src.pubXj := by
    have := h.pub
    apply List.ext_getElem? ; intro l
    by_cases hl : l < ids.length
    · exact (h5 l hl).2.1
    · rw [List.getElem?_eq_none (by omega), List.getElem?_eq_none (by omega)]
  have a3 : d.paillierPKs = src.paillierPKs := by
    have := h.pai
    apply List.ext_getElem? ; intro l
    by_cases hl : l < ids.length
    · exact (h5 l hl).2.2.1
    · rw [List.getElem?_eq_none (by omega), List.getElem?_eq_none (by omega)]
  have a4 : d.ringPedersenPKs = src.ringPedersenPKs := by
    have := h.ring
    apply List.ext_getElem? ; intro l
    by_cases hl : l < ids.length
    · exact (h5 l hl).2.2.2
    · rw [List.getElem?_eq_none (by omega), List.getElem?_eq_none (by omega)]
  obtain ⟨b1, b2, b3, b4, b5, b6, b7, b8⟩ := src
  obtain ⟨c1, c2, c3, c4, c5, c6, c7, c8⟩ := d
  simp only at h1 h2 h3 h4 a1 a2 a3 a4
  simp [h1, h2, h3, h4, a1, a2, a3, a4]

theorem buildLoop_not_ok (src : SaveData) (m : Bytes → Option Nat) : ∀ (ids : List PartyID) (j : Nat) (d : SaveData)
    (id : PartyID), id ∈ ids → m (hexEncode (id.key.getD [])) = none → ∀ d', buildLoop src m j ids d ≠ .ok d'
  | i0 :: t, j, d, id, hmem, hm, d' => by
    unfold buildLoop
    rcases List.mem_cons.1 hmem with rfl | hmem
    · rw [hm]; exact nofun
    · split
      · exact nofun
      · split
        · split
          · exact buildLoop_not_ok src m t _ _ id hmem hm d'
          · exact nofun
        · exact nofun

/-- C59: an id whose key is not in the save data makes the call fail, wherever it stands in the list and whatever
the rest of the data; if the ids before it are known (in order) the error names its key. -/
theorem C59_unknown_rejected (src : SaveData) (h : spec.Consistent src) (ids : List PartyID) (id : PartyID)
    (hmem : id ∈ ids) (hun : ∀ (s : Nat) (k : Int), src.ks[s]? = some (some k) → id.key.getD [] ≠ intBytes k) :
    ∀ d, BuildLocalSaveDataSubset src ids ≠ .ok d := by
  obtain ⟨m, hm, -, hk⟩ := keysToIndices_at h
  unfold BuildLocalSaveDataSubset
  rw [hm]
  exact buildLoop_not_ok src m ids 0 _ id hmem (hk _ hun)

/-- C59: the error returned for an unknown first id carries that id's key. -/
theorem C59_unknown_error (src : SaveData) (h : spec.Consistent src) (id : PartyID) (ids : List PartyID)
    (hun : ∀ (s : Nat) (k : Int), src.ks[s]? = some (some k) → id.key.getD [] ≠ intBytes k) :
    BuildLocalSaveDataSubset src (id :: ids) = .err (id.key.getD []) := by
  obtain ⟨m, hm, -, hk⟩ := keysToIndices_at h
  unfold BuildLocalSaveDataSubset
  rw [hm]
  simp only
  unfold buildLoop
  rw [hk _ hun]

/-- C59: the function writes into the slices it reads from: asked for two known ids in the reverse order, it loses
one of the two keys and public shares. -/
theorem C59_unsorted_corrupts (a b : Int) (hne : intBytes a ≠ intBytes b) (X Y : Option ECPoint) (n1 n2 : Option Int)
    (r1 r2 : Option (Int × Int × Int)) (d : SaveData) (hks : d.ks = [some a, some b]) (hX : d.pubXj = [X, Y])
    (hn : d.paillierPKs = [n1, n2]) (hr : d.ringPedersenPKs = [r1, r2]) (ia ib : PartyID)
    (ha : ia.key = some (intBytes a)) (hb : ib.key = some (intBytes b)) :
    ∃ d', BuildLocalSaveDataSubset d [ib, ia] = .ok d' ∧ d'.ks = [some b, some b] ∧ d'.pubXj = [Y, Y] ∧
      d'.paillierPKs = [n2, n1] := by
  have hx : hexEncode (intBytes a) ≠ hexEncode (intBytes b) := fun e => hne (hexEncode_inj e)
  unfold BuildLocalSaveDataSubset
  rw [hks]
  simp [keysToIndices, buildLoop, ha, hb, hX, hn, hr, hx]

theorem buildLoop_too_many (src : SaveData) (m : Bytes → Option Nat) (n : Nat)
    (hp : src.paillierPKs.length = n) (hr : src.ringPedersenPKs.length = n) : ∀ (t : List PartyID) (j : Nat) (d : SaveData),
    d.ks.length = n → d.pubXj.length = n → d.paillierPKs.length = j + t.length → d.ringPedersenPKs.length = j + t.length → j ≤ n →
    n < j + t.length → (∀ id ∈ t, ∃ s, m (hexEncode (id.key.getD [])) = some s ∧ s < n) → buildLoop src m j t d = .panic
  | [], j, d, _, _, _, _, h1, h2, _ => by simp at h2; omega
  | id :: t, j, d, hk, hx, hpd, hrd, h1, h2, hid => by
    unfold buildLoop
    obtain ⟨s, hs, hsn⟩ := hid id (List.mem_cons_self ..)
    rw [hs]
    simp only
    rw [List.getElem?_eq_getElem (by omega : s < d.ks.length), List.getElem?_eq_getElem (by omega : s < d.pubXj.length),
      List.getElem?_eq_getElem (by omega : s < src.paillierPKs.length), List.getElem?_eq_getElem (by omega : s < src.ringPedersenPKs.length)]
    simp only
    by_cases hj : j < n
    · rw [List.length_cons] at hpd hrd h2
      rw [if_pos ⟨by omega, by omega, by omega, by omega⟩]
      refine buildLoop_too_many src m n hp hr t (j + 1) _ ?_ ?_ ?_ ?_ (by omega) (by omega) fun i hi => hid i (List.mem_cons_of_mem _ hi)
      · show (d.ks.set j _).length = n
        rw [List.length_set]; exact hk
      · show (d.pubXj.set j _).length = n
        rw [List.length_set]; exact hx
      · show (d.paillierPKs.set j _).length = _
        rw [List.length_set]; omega
      · show (d.ringPedersenPKs.set j _).length = _
        rw [List.length_set]; omega
    · rw [if_neg (by omega)]

/-- C59: asked for more ids than there are parties, all of them known (so some repeated), the function panics. -/
theorem C59_too_many_panics (src : SaveData) (h : spec.Consistent src) (ids : List PartyID) (hlen : src.ks.length < ids.length)
    (hid : ∀ id ∈ ids, ∃ (s : Nat) (k : Int), src.ks[s]? = some (some k) ∧ id.key.getD [] = intBytes k) :
    BuildLocalSaveDataSubset src ids = .panic := by
  obtain ⟨m, hm, hk, -⟩ := keysToIndices_at h
  unfold BuildLocalSaveDataSubset
  rw [hm]
  refine buildLoop_too_many src m src.ks.length h.pai h.ring ids 0 _ rfl h.pub (by simp) (by simp) (by omega) (by omega) fun id hi => ?_
  obtain ⟨s, k, h1, h2⟩ := hid id hi
  exact ⟨s, by rw [h2]; exact hk s k h1, (List.getElem?_eq_some_iff.1 h1).1⟩

/-- Non-vacuity: three parties, ids of the first and third requested. -/
def exData : SaveData where
  privXi := some 5
  shareID := some 10
  chainCodes := [some 1, some 2, some 3]
  ks := [some 10, some 20, some 300]
  pubXj := [some ⟨1, 2⟩, some ⟨3, 4⟩, some ⟨5, 6⟩]
  eddsaPub := some ⟨7, 8⟩
  paillierPKs := [some 11, some 12, some 13]
  ringPedersenPKs := [some (1, 2, 3), some (4, 5, 6), some (7, 8, 9)]

example : spec.Consistent exData := by
  refine ⟨by decide, ?_, rfl, rfl, rfl⟩
  intro i j a b ha hb hab
  have hi : i < 3 := (List.getElem?_eq_some_iff.1 ha).1
  have hj : j < 3 := (List.getElem?_eq_some_iff.1 hb).1
  have : i = 0 ∨ i = 1 ∨ i = 2 := by omega
  have : j = 0 ∨ j = 1 ∨ j = 2 := by omega
  rcases ‹i = 0 ∨ _› with rfl | rfl | rfl <;> rcases ‹j = 0 ∨ _› with rfl | rfl | rfl <;>
    simp [exData] at ha hb <;> subst ha hb <;> first | rfl | exact absurd hab (by decide)

example : BuildLocalSaveDataSubset exData
    [⟨"0", "m_0", some [10], 0⟩, ⟨"1", "m_1", some [1, 44], 1⟩] = .ok { exData with
      ks := [some 10, some 300, some 300]
      pubXj := [some ⟨1, 2⟩, some ⟨5, 6⟩, some ⟨5, 6⟩]
      paillierPKs := [some 11, some 13]
      ringPedersenPKs := [some (1, 2, 3), some (7, 8, 9)] } := by decide

example : BuildLocalSaveDataSubset exData
    [⟨"0", "m_0", some [10], 0⟩, ⟨"1", "m_1", some [20], 1⟩, ⟨"2", "m_2", some [20], 2⟩, ⟨"3", "m_3", some [1, 44], 3⟩] = .panic := by decide

end Tss.Keygen
