import Verif.Model.SaveJson
import Verif.Lemmas.JsonPrefix
import Verif.Lemmas.RangeProofs
import Verif.Lemmas.EC
/-! C76: save data and signature records as JSON. -/
namespace Tss.SaveJson
open Tss Text RangeProofs

/-! ### Shapes -/

theorem names_ascii : ∀ n ∈ [ascii "Curve", ascii "Coords", ascii "ed25519", ascii "N", ascii "S", ascii "T", ascii "PrivXi",
    ascii "ShareID", ascii "ChainCodes", ascii "Ks", ascii "PubXj", ascii "EdDSAPub", ascii "PaillierPKs",
    ascii "RingPedersenPKs", ascii "signature", ascii "r", ascii "s", ascii "m"], ∀ c ∈ n, c < 128 := by decide

theorem ok_big (n : Nat) (o : Option Int) : Json.Ok n (bigJson o) := by
  cases o with
  | none => exact .null n
  | some z => exact .num n _

theorem ok_obj (n : Nat) (l : List (Bytes × Json)) (h : ∀ m ∈ l, (∀ c ∈ m.1, c < 128) ∧ Json.Ok n m.2) : Json.Ok (n + 1) (.obj l) :=
  .obj _ _ (fun m hm => (h m hm).1) fun m hm => (h m hm).2

theorem ok_point (n : Nat) (o : Option ECPoint) : Json.Ok (n + 2) (pointJson o) := by
  cases o with
  | none => exact .null _
  | some p =>
    refine ok_obj _ _ ?_
    simp only [List.forall_mem_cons, List.not_mem_nil, false_imp_iff, implies_true, and_true]
    refine ⟨⟨names_ascii _ (by simp), .str _ _ (names_ascii _ (by simp))⟩, names_ascii _ (by simp), .arr _ _ ?_⟩
    simp only [List.forall_mem_cons, List.not_mem_nil, false_imp_iff, implies_true, and_true]
    exact ⟨ok_big _ _, ok_big _ _⟩

theorem ok_paillier (n : Nat) (o : Option Int) : Json.Ok (n + 1) (paillierJson o) := by
  cases o with
  | none => exact .null _
  | some p =>
    refine ok_obj _ _ ?_
    simp only [List.forall_mem_cons, List.not_mem_nil, false_imp_iff, implies_true, and_true]
    exact ⟨names_ascii _ (by simp), ok_big _ _⟩

theorem ok_ped (n : Nat) (o : Option (Int × Int × Int)) : Json.Ok (n + 1) (pedJson o) := by
  cases o with
  | none => exact .null _
  | some p =>
    refine ok_obj _ _ ?_
    simp only [List.forall_mem_cons, List.not_mem_nil, false_imp_iff, implies_true, and_true]
    exact ⟨⟨names_ascii _ (by simp), ok_big _ _⟩, ⟨names_ascii _ (by simp), ok_big _ _⟩, names_ascii _ (by simp), ok_big _ _⟩

theorem ok_list {α : Type} (n : Nat) (f : α → Json) (h : ∀ a, Json.Ok n (f a)) (l : List α) : Json.Ok (n + 1) (.arr (l.map f)) := by
  refine .arr _ _ ?_
  intro v hv
  obtain ⟨a, -, rfl⟩ := List.mem_map.mp hv
  exact h a

theorem ok_chain (n : Nat) (l : List (Option Int)) : Json.Ok (n + 1) (chainJson l) := by
  unfold chainJson
  split
  · exact .null _
  · exact ok_list n _ (ok_big n) _

theorem ok_save (d : Keygen.SaveData) : Json.Ok 4 (saveJson d) := by
  refine ok_obj _ _ ?_
  simp only [List.forall_mem_cons, List.not_mem_nil, false_imp_iff, implies_true, and_true]
  exact ⟨⟨names_ascii _ (by simp), ok_big _ _⟩, ⟨names_ascii _ (by simp), ok_big _ _⟩, ⟨names_ascii _ (by simp), ok_chain 2 _⟩,
    ⟨names_ascii _ (by simp), ok_list 2 _ (ok_big 2) _⟩, ⟨names_ascii _ (by simp), ok_list 2 _ (ok_point 0) _⟩,
    ⟨names_ascii _ (by simp), ok_point 1 _⟩, ⟨names_ascii _ (by simp), ok_list 2 _ (ok_paillier 1) _⟩,
    names_ascii _ (by simp), ok_list 2 _ (ok_ped 1) _⟩

/-! ### Reading back -/

theorem readBig_bigJson (o : Option Int) : readBig (bigJson o) = some o := by
  cases o with
  | none => rfl
  | some z => unfold bigJson readBig; simp [parseBig_bigString]

theorem mapM_map {α : Type} (f : α → Json) (g : Json → Option α) (l : List α) (h : ∀ a ∈ l, g (f a) = some a) :
    (l.map f).mapM g = some l := by
  induction l with
  | nil => rfl
  | cons a l ih =>
    rw [List.map_cons, List.mapM_cons, h a (by simp), ih fun b hb => h b (by simp [hb])]
    rfl

theorem fold_names : Json.foldName (ascii "Curve") = ascii "curve" ∧ Json.foldName (ascii "Coords") = ascii "coords" ∧
    Json.foldName (ascii "N") = ascii "n" ∧ Json.foldName (ascii "S") = ascii "s" ∧ Json.foldName (ascii "T") = ascii "t" ∧
    Json.foldName (ascii "PrivXi") = ascii "privxi" ∧ Json.foldName (ascii "ShareID") = ascii "shareid" ∧
    Json.foldName (ascii "ChainCodes") = ascii "chaincodes" ∧ Json.foldName (ascii "Ks") = ascii "ks" ∧
    Json.foldName (ascii "PubXj") = ascii "pubxj" ∧ Json.foldName (ascii "EdDSAPub") = ascii "eddsapub" ∧
    Json.foldName (ascii "PaillierPKs") = ascii "paillierpks" ∧
    Json.foldName (ascii "RingPedersenPKs") = ascii "ringpedersenpks" := by decide

theorem readPoint_pointJson (o : Option ECPoint) (h : ∀ p, o = some p → Ed.curve.On p) : readPoint (pointJson o) = some o := by
  cases o with
  | none => rfl
  | some p =>
    have hp : Ed.curve.isOnCurve p.x p.y = true := h p rfl
    have h1 : readAux ⟨[], none, none⟩ (ascii "Curve", .str (ascii "ed25519")) = some ⟨ascii "ed25519", none, none⟩ := by
      unfold readAux; rw [fold_names.1]; rfl
    have h2 : readAux ⟨ascii "ed25519", none, none⟩ (ascii "Coords", .arr [bigJson (some p.x), bigJson (some p.y)]) =
        some ⟨ascii "ed25519", some p.x, some p.y⟩ := by
      unfold readAux
      simp only [fold_names.2.1]
      rw [if_neg (by decide), if_pos trivial]
      unfold readCoords
      simp only [readBig_bigJson]
    unfold pointJson readPoint
    simp only [List.foldlM_cons, List.foldlM_nil, h1, h2, Option.bind_eq_bind, Option.bind_some, Option.pure_def]
    rw [if_pos (.inr trivial), if_pos hp]

theorem readPaillier_json (o : Option Int) : readPaillier (paillierJson o) = some o := by
  cases o with
  | none => rfl
  | some n =>
    have h1 : readN none (ascii "N", bigJson (some n)) = some (some n) := by
      unfold readN; simp only [fold_names.2.2.1]; rw [if_pos trivial, readBig_bigJson]
    unfold paillierJson readPaillier
    simp only [List.foldlM_cons, List.foldlM_nil, h1, Option.bind_eq_bind, Option.bind_some, Option.pure_def]
    rfl

theorem readPed_json (o : Option (Int × Int × Int)) : readPed (pedJson o) = some o := by
  cases o with
  | none => rfl
  | some p =>
    obtain ⟨n, s, t⟩ := p
    have h1 : readNst (none, none, none) (ascii "N", bigJson (some n)) = some (some n, none, none) := by
      unfold readNst; simp only [fold_names.2.2.1]; rw [if_pos trivial, readBig_bigJson]; rfl
    have h2 : readNst (some n, none, none) (ascii "S", bigJson (some s)) = some (some n, some s, none) := by
      unfold readNst; simp only [fold_names.2.2.2.1]; rw [if_neg (by decide), if_pos trivial, readBig_bigJson]; rfl
    have h3 : readNst (some n, some s, none) (ascii "T", bigJson (some t)) = some (some n, some s, some t) := by
      unfold readNst; simp only [fold_names.2.2.2.2.1]; rw [if_neg (by decide), if_neg (by decide), if_pos trivial, readBig_bigJson]; rfl
    unfold pedJson readPed
    simp only [List.foldlM_cons, List.foldlM_nil, h1, h2, h3, Option.bind_eq_bind, Option.bind_some, Option.pure_def]
    rfl

theorem readList_map {α : Type} (f : α → Json) (g : Json → Option α) (l : List α) (h : ∀ a ∈ l, g (f a) = some a) :
    readList g (.arr (l.map f)) = some l := mapM_map f g l h

theorem readChain (l : List (Option Int)) : readList readBig (chainJson l) = some l := by
  unfold chainJson
  split
  · next h => rw [List.isEmpty_iff.mp h]; rfl
  · exact readList_map _ _ _ fun a _ => readBig_bigJson a

/-- C76. What key generation stores is what signing reads: for every record whose points are on the curve, the JSON text written
by the last round parses to the same record. -/
theorem C76_save_round_trip (d : Keygen.SaveData) (h1 : ∀ p, some p ∈ d.pubXj → Ed.curve.On p)
    (h2 : ∀ p, d.eddsaPub = some p → Ed.curve.On p) : unmarshal (marshal d) = some d := by
  unfold unmarshal marshal
  rw [Json.parse_render (ok_save d) (by decide)]
  unfold saveJson
  simp only
  obtain ⟨-, -, -, -, -, n1, n2, n3, n4, n5, n6, n7, n8⟩ := fold_names
  have f1 : readField emptySave (ascii "PrivXi", bigJson d.privXi) = some ⟨d.privXi, none, [], [], [], none, [], []⟩ := by
    unfold readField; simp only [n1]; rw [if_pos trivial, readBig_bigJson]; rfl
  have f2 : readField ⟨d.privXi, none, [], [], [], none, [], []⟩ (ascii "ShareID", bigJson d.shareID) =
      some ⟨d.privXi, d.shareID, [], [], [], none, [], []⟩ := by
    unfold readField; simp only [n2]; rw [if_neg (by decide), if_pos trivial, readBig_bigJson]; rfl
  have f3 : readField ⟨d.privXi, d.shareID, [], [], [], none, [], []⟩ (ascii "ChainCodes", chainJson d.chainCodes) =
      some ⟨d.privXi, d.shareID, d.chainCodes, [], [], none, [], []⟩ := by
    unfold readField; simp only [n3]; rw [if_neg (by decide), if_neg (by decide), if_pos trivial, readChain]; rfl
  have f4 : readField ⟨d.privXi, d.shareID, d.chainCodes, [], [], none, [], []⟩
      (ascii "Ks", .arr (d.ks.map bigJson)) =
      some ⟨d.privXi, d.shareID, d.chainCodes, d.ks, [], none, [], []⟩ := by
    unfold readField; simp only [n4]
    rw [if_neg (by decide), if_neg (by decide), if_neg (by decide), if_pos trivial, readList_map _ _ _ fun a _ => readBig_bigJson a]
    rfl
  have f5 : readField ⟨d.privXi, d.shareID, d.chainCodes, d.ks, [], none, [], []⟩
      (ascii "PubXj", .arr (d.pubXj.map pointJson)) =
      some ⟨d.privXi, d.shareID, d.chainCodes, d.ks, d.pubXj, none, [], []⟩ := by
    unfold readField; simp only [n5]
    rw [if_neg (by decide), if_neg (by decide), if_neg (by decide), if_neg (by decide), if_pos trivial,
      readList_map _ _ _ fun a ha => readPoint_pointJson a fun p hp => h1 p (hp ▸ ha)]
    rfl
  have f6 : readField ⟨d.privXi, d.shareID, d.chainCodes, d.ks, d.pubXj, none, [], []⟩
      (ascii "EdDSAPub", pointJson d.eddsaPub) =
      some ⟨d.privXi, d.shareID, d.chainCodes, d.ks, d.pubXj, d.eddsaPub, [], []⟩ := by
    unfold readField; simp only [n6]
    rw [if_neg (by decide), if_neg (by decide), if_neg (by decide), if_neg (by decide), if_neg (by decide), if_pos trivial,
      readPoint_pointJson _ h2]
    rfl
  have f7 : readField ⟨d.privXi, d.shareID, d.chainCodes, d.ks, d.pubXj, d.eddsaPub, [], []⟩ (ascii "PaillierPKs", .arr (d.paillierPKs.map paillierJson)) =
      some ⟨d.privXi, d.shareID, d.chainCodes, d.ks, d.pubXj, d.eddsaPub, d.paillierPKs, []⟩ := by
    unfold readField; simp only [n7]
    rw [if_neg (by decide), if_neg (by decide), if_neg (by decide), if_neg (by decide), if_neg (by decide), if_neg (by decide),
      if_pos trivial, readList_map _ _ _ fun a _ => readPaillier_json a]
    rfl
  have f8 : readField ⟨d.privXi, d.shareID, d.chainCodes, d.ks, d.pubXj, d.eddsaPub, d.paillierPKs, []⟩ (ascii "RingPedersenPKs", .arr (d.ringPedersenPKs.map pedJson)) =
      some d := by
    unfold readField; simp only [n8]
    rw [if_neg (by decide), if_neg (by decide), if_neg (by decide), if_neg (by decide), if_neg (by decide), if_neg (by decide),
      if_neg (by decide), if_pos trivial, readList_map _ _ _ fun a _ => readPed_json a]
    rfl
  simp only [List.foldlM_cons, List.foldlM_nil, f1, f2, f3, f4, f5, f6, f7, f8, Option.bind_eq_bind, Option.bind_some, Option.pure_def]

theorem bigJson_inj {a b : Option Int} (h : bigJson a = bigJson b) : a = b := by
  have := readBig_bigJson a
  rw [h, readBig_bigJson] at this
  exact (Option.some.inj this).symm

theorem pointJson_inj {a b : Option ECPoint} (h : pointJson a = pointJson b) : a = b := by
  cases a with
  | none => cases b with
    | none => rfl
    | some q => cases h
  | some p => cases b with
    | none => cases h
    | some q =>
      unfold pointJson at h
      simp only [Json.obj.injEq, List.cons.injEq, Prod.mk.injEq, Json.arr.injEq, true_and, and_true] at h
      have h1 := Option.some.inj (bigJson_inj h.1)
      have h2 := Option.some.inj (bigJson_inj h.2)
      cases p; cases q; simp only at h1 h2; rw [h1, h2]

theorem map_json_inj {α : Type} {f : α → Json} (hf : ∀ a b, f a = f b → a = b) {l l' : List α}
    (h : Json.arr (l.map f) = Json.arr (l'.map f)) : l = l' :=
  List.map_injective_iff.mpr (fun a b => hf a b) (Json.arr.inj h)

/-- C76. Two different records never have the same text, whatever they hold. -/
theorem C76_save_injective (d d' : Keygen.SaveData) (e : marshal d = marshal d') : d = d' := by
  have h : saveJson d = saveJson d' := by
    have h1 := Json.parse_render (ok_save d) (by decide)
    have h2 := Json.parse_render (ok_save d') (by decide)
    unfold marshal at e
    rw [e, h2] at h1
    exact (Option.some.inj h1).symm
  unfold saveJson at h
  simp only [Json.obj.injEq, List.cons.injEq, Prod.mk.injEq, true_and, and_true] at h
  obtain ⟨a1, a2, a3, a4, a5, a6, a7, a8⟩ := h
  have c1 := bigJson_inj a1
  have c2 := bigJson_inj a2
  have c3 : d.chainCodes = d'.chainCodes := by
    have := readChain d.chainCodes
    rw [a3, readChain] at this
    exact (Option.some.inj this).symm
  have c4 := map_json_inj (fun _ _ h => bigJson_inj h) a4
  have c5 := map_json_inj (fun _ _ h => pointJson_inj h) a5
  have c6 := pointJson_inj a6
  have c7 := map_json_inj (fun a b h => by
    have := readPaillier_json a
    rw [h, readPaillier_json] at this
    exact (Option.some.inj this).symm) a7
  have c8 := map_json_inj (fun a b h => by
    have := readPed_json a
    rw [h, readPed_json] at this
    exact (Option.some.inj this).symm) a8
  cases d; cases d'
  simp only at c1 c2 c3 c4 c5 c6 c7 c8
  subst c1 c2 c3 c4 c5 c6 c7 c8
  rfl

/-- C76. A file cut short by a crash, at whatever byte, is refused. -/
theorem C76_truncated_refused (d : Keygen.SaveData) (k : Nat) (hk : k < (marshal d).length) : unmarshal ((marshal d).take k) = none := by
  unfold unmarshal
  have : Json.parse ((marshal d).take k) = none := by
    refine Json.parse_prefix (ok_save d) (by decide) (x := (marshal d).drop k) (List.take_append_drop k _).symm ?_
    intro h
    have := congrArg List.length h
    rw [List.length_drop, List.length_nil] at this
    omega
  rw [this]

/-- C76. Anything but white space behind the record is refused. -/
theorem C76_trailing_refused (d : Keygen.SaveData) (x : Bytes) (hx : ∃ c ∈ x, Json.isSpace c = false) : unmarshal (marshal d ++ x) = none := by
  unfold unmarshal
  have : Json.parse (marshal d ++ x) = none := Json.parse_suffix (ok_save d) (by decide) hx
  rw [this]

/-- C76. White space behind the record changes nothing. -/
theorem C76_trailing_space (d : Keygen.SaveData) (x : Bytes) (hx : ∀ c ∈ x, Json.isSpace c = true) :
    unmarshal (marshal d ++ x) = unmarshal (marshal d) := by
  have h1 : Json.parse (marshal d ++ x) = some (saveJson d) := Json.parse_spaces (ok_save d) (by decide) hx
  have h2 : Json.parse (marshal d) = some (saveJson d) := Json.parse_render (ok_save d) (by decide)
  unfold unmarshal
  rw [h1, h2]

/-! ### Points -/

theorem readPoint_on {v : Json} {o : Option ECPoint} (h : readPoint v = some o) : ∀ p, o = some p → Ed.curve.On p := by
  unfold readPoint at h
  split at h
  · cases h; intro p hp; cases hp
  · split at h
    · cases h
    · split at h
      · split at h
        · split at h
          · next hon => cases h; rintro p hp; cases hp; exact hon
          · cases h
        · cases h
      · cases h
  · cases h

theorem mapM_mem {α β : Type} (g : α → Option β) : ∀ (l : List α) (m : List β), l.mapM g = some m → ∀ b ∈ m, ∃ a ∈ l, g a = some b
  | [], m, h, b, hb => by cases h; cases hb
  | a :: l, m, h, b, hb => by
    rw [List.mapM_cons] at h
    cases ha : g a with
    | none => rw [ha] at h; cases h
    | some c =>
      cases hl : l.mapM g with
      | none => rw [ha, hl] at h; cases h
      | some m' =>
        rw [ha, hl] at h
        cases h
        rcases List.mem_cons.mp hb with rfl | hb
        · exact ⟨a, by simp, ha⟩
        · obtain ⟨a', h1, h2⟩ := mapM_mem g l m' hl b hb
          exact ⟨a', by simp [h1], h2⟩

/-- every point of the record is on the curve -/
def PointsOn (d : Keygen.SaveData) : Prop := (∀ p, some p ∈ d.pubXj → Ed.curve.On p) ∧ ∀ p, d.eddsaPub = some p → Ed.curve.On p

theorem readField_on {d d' : Keygen.SaveData} {m : Bytes × Json} (h : readField d m = some d') (hd : PointsOn d) : PointsOn d' := by
  unfold readField at h
  simp only at h
  have keep : ∀ {α : Type} (o : Option α) (f : α → Keygen.SaveData), o.map f = some d' →
      (∀ a, (f a).pubXj = d.pubXj ∧ (f a).eddsaPub = d.eddsaPub) → PointsOn d' := by
    intro α o f ho hf
    obtain ⟨a, -, rfl⟩ := Option.map_eq_some_iff.mp ho
    unfold PointsOn
    rw [(hf a).1, (hf a).2]
    exact hd
  split at h
  · exact keep _ _ h fun _ => ⟨rfl, rfl⟩
  split at h
  · exact keep _ _ h fun _ => ⟨rfl, rfl⟩
  split at h
  · exact keep _ _ h fun _ => ⟨rfl, rfl⟩
  split at h
  · exact keep _ _ h fun _ => ⟨rfl, rfl⟩
  split at h
  · obtain ⟨l, hl, rfl⟩ := Option.map_eq_some_iff.mp h
    refine ⟨?_, hd.2⟩
    intro p hp
    unfold readList at hl
    split at hl
    · cases hl; cases hp
    · next vs =>
      obtain ⟨v, -, hv⟩ := mapM_mem _ _ _ hl _ hp
      exact readPoint_on hv p rfl
    · cases hl
  split at h
  · obtain ⟨o, ho, rfl⟩ := Option.map_eq_some_iff.mp h
    exact ⟨hd.1, fun p hp => readPoint_on ho p hp⟩
  split at h
  · exact keep _ _ h fun _ => ⟨rfl, rfl⟩
  split at h
  · exact keep _ _ h fun _ => ⟨rfl, rfl⟩
  · cases h; exact hd

theorem foldlM_readField : ∀ (l : List (Bytes × Json)) (d d' : Keygen.SaveData), l.foldlM readField d = some d' → PointsOn d → PointsOn d'
  | [], d, d', h, hd => by cases h; exact hd
  | m :: l, d, d', h, hd => by
    rw [List.foldlM_cons] at h
    cases hm : readField d m with
    | none => rw [hm] at h; cases h
    | some d1 => rw [hm] at h; exact foldlM_readField l d1 d' h (readField_on hm hd)

/-- C76. Whatever bytes are given as key data, every public key share and the group key of the record read from them are on the
curve. -/
theorem C76_points_on_curve (b : Bytes) (d : Keygen.SaveData) (h : unmarshal b = some d) :
    (∀ p, some p ∈ d.pubXj → Ed.curve.isOnCurve p.x p.y = true) ∧ ∀ p, d.eddsaPub = some p → Ed.curve.isOnCurve p.x p.y = true := by
  unfold unmarshal at h
  have h0 : PointsOn emptySave := ⟨fun p hp => absurd hp List.not_mem_nil, fun p hp => by cases hp⟩
  split at h
  · cases h; exact h0
  · exact foldlM_readField _ _ _ h h0
  · cases h

/-! ### Signature records -/

/-- Specification: the byte string a client finds under a name in a JSON object, empty if there is none. -/
def fieldBytes (v : Json) (name : String) : Option Bytes :=
  match v with
  | .obj l =>
    match l.find? (fun m => m.1 == ascii name) with
    | some (_, .str s) => b64Decode s
    | some _ => none
    | none => some []
  | _ => none

theorem b64Digit_ascii (n : Nat) : b64Digit n < 128 := by
  rw [UInt8.lt_iff_toNat_lt]
  unfold b64Digit
  split
  · rw [u8_ofNat_toNat (by omega)]; show _ < 128; omega
  split
  · rw [u8_ofNat_toNat (by omega)]; show _ < 128; omega
  split
  · rw [u8_ofNat_toNat (by omega)]; show _ < 128; omega
  split <;> decide

theorem b64_ascii : ∀ (b : Bytes), ∀ c ∈ b64Encode b, c < 128
  | [] => by simp [b64Encode]
  | [a] => by simp [b64Encode, b64Digit_ascii]
  | [a, b] => by simp [b64Encode, b64Digit_ascii]
  | a :: b :: c :: t => by
    have := b64_ascii t
    simp only [b64Encode, List.forall_mem_cons]
    exact ⟨b64Digit_ascii _, b64Digit_ascii _, b64Digit_ascii _, b64Digit_ascii _, this⟩

theorem ok_bytesMember (n : Nat) (name : String) (b : Bytes) (h : ∀ c ∈ ascii name, c < 128) :
    ∀ m ∈ bytesMember name b, (∀ c ∈ m.1, c < 128) ∧ Json.Ok n m.2 := by
  unfold bytesMember
  split
  · simp
  · simp only [List.forall_mem_cons, List.not_mem_nil, false_imp_iff, implies_true, and_true]
    exact ⟨h, .str _ _ (b64_ascii b)⟩

theorem ok_sig (d : Onsign.SigData) : Json.Ok 1 (sigJson d) := by
  refine ok_obj _ _ ?_
  intro m hm
  simp only [List.mem_append] at hm
  rcases hm with ((hm | hm) | hm) | hm
  · exact ok_bytesMember _ _ _ (names_ascii _ (by simp)) m hm
  · exact ok_bytesMember _ _ _ (names_ascii _ (by simp)) m hm
  · exact ok_bytesMember _ _ _ (names_ascii _ (by simp)) m hm
  · exact ok_bytesMember _ _ _ (names_ascii _ (by simp)) m hm

theorem find_bytesMember (name name' : String) (b : Bytes) (l : List (Bytes × Json)) (h : ascii name ≠ ascii name') :
    (bytesMember name b ++ l).find? (fun m => m.1 == ascii name') = l.find? (fun m => m.1 == ascii name') := by
  unfold bytesMember
  split
  · rfl
  · rw [List.cons_append, List.nil_append, List.find?_cons_of_neg]
    intro hc
    exact h (eq_of_beq hc)

theorem find_bytesMember_self (name : String) (b : Bytes) (l : List (Bytes × Json)) (h : l.find? (fun m => m.1 == ascii name) = none) :
    fieldBytes (.obj (bytesMember name b ++ l)) name = some b := by
  unfold fieldBytes bytesMember
  simp only
  by_cases he : b.isEmpty = true
  · rw [if_pos he, List.nil_append, h, List.isEmpty_iff.mp he]
  · rw [if_neg he, List.cons_append, List.nil_append, List.find?_cons_of_pos (by simp)]
    exact b64_round_trip b

theorem find_bytesMember_none (name name' : String) (b : Bytes) (h : ascii name ≠ ascii name') :
    (bytesMember name b).find? (fun m => m.1 == ascii name') = none := by
  have := find_bytesMember name name' b [] h
  rwa [List.append_nil] at this

theorem fieldBytes_skip (name name' : String) (b : Bytes) (l : List (Bytes × Json)) (h : ascii name ≠ ascii name') :
    fieldBytes (.obj (bytesMember name b ++ l)) name' = fieldBytes (.obj l) name' := by
  unfold fieldBytes
  simp only
  rw [find_bytesMember _ _ _ _ h]

/-- C76. The record a signing session returns is a JSON object in which a client finds, under their names, exactly the signature,
its two halves and the message that was signed. -/
theorem C76_signature_record (d : Onsign.SigData) : ∃ v, Json.parse (marshalSig d) = some v ∧
    fieldBytes v "signature" = some d.signature ∧ fieldBytes v "r" = some d.r ∧ fieldBytes v "s" = some d.s ∧
    fieldBytes v "m" = some d.m := by
  refine ⟨_, Json.parse_render (ok_sig d) (by decide), ?_⟩
  unfold sigJson
  simp only [List.append_assoc]
  refine ⟨?_, ?_, ?_, ?_⟩
  · refine find_bytesMember_self _ _ _ ?_
    rw [find_bytesMember _ _ _ _ (by decide), find_bytesMember _ _ _ _ (by decide), find_bytesMember_none _ _ _ (by decide)]
  · rw [fieldBytes_skip _ _ _ _ (by decide)]
    refine find_bytesMember_self _ _ _ ?_
    rw [find_bytesMember _ _ _ _ (by decide), find_bytesMember_none _ _ _ (by decide)]
  · rw [fieldBytes_skip _ _ _ _ (by decide), fieldBytes_skip _ _ _ _ (by decide)]
    refine find_bytesMember_self _ _ _ ?_
    rw [find_bytesMember_none _ _ _ (by decide)]
  · rw [fieldBytes_skip _ _ _ _ (by decide), fieldBytes_skip _ _ _ _ (by decide), fieldBytes_skip _ _ _ _ (by decide)]
    have := find_bytesMember_self "m" d.m [] rfl
    rwa [List.append_nil] at this

/-! ### Examples -/

/-- a record as the last round writes it (two parties, the identity as both public shares), and the text of a point -/
example : unmarshal (ascii "{\"PrivXi\":5,\"ShareID\":1,\"ChainCodes\":[7],\"Ks\":[1,2],\"PubXj\":[{\"Curve\":\"ed25519\",\"Coords\":[0,1]},null],\"EdDSAPub\":null,\"PaillierPKs\":[null,{\"N\":15}],\"RingPedersenPKs\":[null,{\"N\":15,\"S\":4,\"T\":2}]}") =
    some ⟨some 5, some 1, [some 7], [some 1, some 2], [some ⟨0, 1⟩, none], none, [none, some 15], [none, some (15, 4, 2)]⟩ := by
  decide +kernel

example : marshal ⟨some 5, some 1, [some 7], [some 1, some 2], [some ⟨0, 1⟩, none], none, [none, some 15], [none, some (15, 4, 2)]⟩ =
    ascii "{\"PrivXi\":5,\"ShareID\":1,\"ChainCodes\":[7],\"Ks\":[1,2],\"PubXj\":[{\"Curve\":\"ed25519\",\"Coords\":[0,1]},null],\"EdDSAPub\":null,\"PaillierPKs\":[null,{\"N\":15}],\"RingPedersenPKs\":[null,{\"N\":15,\"S\":4,\"T\":2}]}" := by
  decide +kernel

/-- names are matched without regard to case, spaces and unknown members are skipped -/
example : unmarshal (ascii " { \"privxi\" : -3 , \"other\" : [true, 1.5e3] } ") = some { emptySave with privXi := some (-3) } := by
  decide +kernel

/-- a point off the curve, a fraction and a text cut short are refused -/
example : unmarshal (ascii "{\"PubXj\":[{\"Curve\":\"ed25519\",\"Coords\":[0,2]}]}") = none ∧
    unmarshal (ascii "{\"PrivXi\":1.5}") = none ∧ unmarshal (ascii "{\"PrivXi\":15") = none := by
  decide +kernel

example : marshalSig ⟨[1, 2, 3], [1], [2], []⟩ = ascii "{\"signature\":\"AQID\",\"r\":\"AQ==\",\"s\":\"Ag==\"}" := by decide +kernel

end Tss.SaveJson
