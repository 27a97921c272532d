import Verif.Model.SaveAny
import Verif.Props.SaveJson
/-
C76 for records whose points carry their curve.
-/
namespace Tss.SaveJson
open Tss Text RangeProofs

/-- Every point of the record is on the curve it names. -/
def spec.OnTheirCurves (d : SaveAny) : Prop :=
  (∀ q, some q ∈ d.pubXj → q.c.curve.isOnCurve q.p.x q.p.y = true) ∧ ∀ q, d.eddsaPub = some q → q.c.curve.isOnCurve q.p.x q.p.y = true

/-- The record with all its points on edwards25519. -/
def spec.lift (d : Keygen.SaveData) : SaveAny :=
  ⟨d.privXi, d.shareID, d.chainCodes, d.ks, d.pubXj.map (Option.map (CPoint.mk .ed25519)), d.eddsaPub.map (CPoint.mk .ed25519), d.paillierPKs, d.ringPedersenPKs⟩

theorem name_ascii (c : CurveId) : ∀ x ∈ c.name, x < 128 := by cases c <;> decide

theorem byName_name (c : CurveId) : (if c.name = [] then some CurveId.ed25519 else curveByName c.name) = some c := by cases c <;> decide

theorem ok_cpoint (n : Nat) (o : Option CPoint) : Json.Ok (n + 2) (cpointJson o) := by
  cases o with
  | none => exact .null _
  | some p =>
    refine ok_obj _ _ ?_
    simp only [List.forall_mem_cons, List.not_mem_nil, false_imp_iff, implies_true, and_true]
    refine ⟨⟨names_ascii _ (by simp), .str _ _ (name_ascii _)⟩, names_ascii _ (by simp), .arr _ _ ?_⟩
    simp only [List.forall_mem_cons, List.not_mem_nil, false_imp_iff, implies_true, and_true]
    exact ⟨ok_big _ _, ok_big _ _⟩


theorem ok_saveAny (d : SaveAny) : Json.Ok 4 (saveAnyJson d) := by
  refine ok_obj _ _ ?_
  simp only [List.forall_mem_cons, List.not_mem_nil, false_imp_iff, implies_true, and_true]
  exact ⟨⟨names_ascii _ (by simp), ok_big _ _⟩, ⟨names_ascii _ (by simp), ok_big _ _⟩, ⟨names_ascii _ (by simp), ok_chain 2 _⟩,
    ⟨names_ascii _ (by simp), ok_list 2 _ (ok_big 2) _⟩, ⟨names_ascii _ (by simp), ok_list 2 _ (ok_cpoint 0) _⟩,
    ⟨names_ascii _ (by simp), ok_cpoint 1 _⟩, ⟨names_ascii _ (by simp), ok_list 2 _ (ok_paillier 1) _⟩,
    names_ascii _ (by simp), ok_list 2 _ (ok_ped 1) _⟩

/-! ### Reading back -/


theorem readCPoint_json (o : Option CPoint) (h : ∀ q, o = some q → q.c.curve.isOnCurve q.p.x q.p.y = true) : readCPoint (cpointJson o) = some o := by
  cases o with
  | none => rfl
  | some q =>
    obtain ⟨c, p⟩ := q
    have hp : c.curve.isOnCurve p.x p.y = true := h _ rfl
    have h1 : readAux ⟨[], none, none⟩ (ascii "Curve", .str c.name) = some ⟨c.name, none, none⟩ := by
      unfold readAux; rw [fold_names.1]; rfl
    have h2 : readAux ⟨c.name, none, none⟩ (ascii "Coords", .arr [bigJson (some p.x), bigJson (some p.y)]) =
        some ⟨c.name, some p.x, some p.y⟩ := by
      unfold readAux
      simp only [fold_names.2.1]
      rw [if_neg (by decide), if_pos trivial]
      unfold readCoords
      simp only [readBig_bigJson]
    unfold cpointJson readCPoint
    simp only [List.foldlM_cons, List.foldlM_nil, h1, h2, Option.bind_eq_bind, Option.bind_some, Option.pure_def, byName_name]
    rw [if_pos hp]

/-- C76. With the curve of every point: a record whose points are on the curves they name is read back, each point on its curve. In
particular a record with points of secp256k1 is accepted as key data. -/
theorem C76_any_round_trip (d : SaveAny) (h : spec.OnTheirCurves d) : unmarshalAny (marshalAny d) = some d := by
  unfold unmarshalAny marshalAny
  rw [Json.parse_render (ok_saveAny d) (by decide)]
  unfold saveAnyJson
  simp only
  obtain ⟨-, -, -, -, -, n1, n2, n3, n4, n5, n6, n7, n8⟩ := fold_names
  have f1 : readFieldAny ⟨none, none, [], [], [], none, [], []⟩ (ascii "PrivXi", bigJson d.privXi) = some ⟨d.privXi, none, [], [], [], none, [], []⟩ := by
    unfold readFieldAny; simp only [n1]; rw [if_pos trivial, readBig_bigJson]; rfl
  have f2 : readFieldAny ⟨d.privXi, none, [], [], [], none, [], []⟩ (ascii "ShareID", bigJson d.shareID) =
      some ⟨d.privXi, d.shareID, [], [], [], none, [], []⟩ := by
    unfold readFieldAny; simp only [n2]; rw [if_neg (by decide), if_pos trivial, readBig_bigJson]; rfl
  have f3 : readFieldAny ⟨d.privXi, d.shareID, [], [], [], none, [], []⟩ (ascii "ChainCodes", chainJson d.chainCodes) =
      some ⟨d.privXi, d.shareID, d.chainCodes, [], [], none, [], []⟩ := by
    unfold readFieldAny; simp only [n3]; rw [if_neg (by decide), if_neg (by decide), if_pos trivial, readChain]; rfl
  have f4 : readFieldAny ⟨d.privXi, d.shareID, d.chainCodes, [], [], none, [], []⟩
      (ascii "Ks", .arr (d.ks.map bigJson)) =
      some ⟨d.privXi, d.shareID, d.chainCodes, d.ks, [], none, [], []⟩ := by
    unfold readFieldAny; simp only [n4]
    rw [if_neg (by decide), if_neg (by decide), if_neg (by decide), if_pos trivial, readList_map _ _ _ fun a _ => readBig_bigJson a]
    rfl
  have f5 : readFieldAny ⟨d.privXi, d.shareID, d.chainCodes, d.ks, [], none, [], []⟩
      (ascii "PubXj", .arr (d.pubXj.map cpointJson)) =
      some ⟨d.privXi, d.shareID, d.chainCodes, d.ks, d.pubXj, none, [], []⟩ := by
    unfold readFieldAny; simp only [n5]
    rw [if_neg (by decide), if_neg (by decide), if_neg (by decide), if_neg (by decide), if_pos trivial,
      readList_map _ _ _ fun a ha => readCPoint_json a fun p hp => h.1 p (hp ▸ ha)]
    rfl
  have f6 : readFieldAny ⟨d.privXi, d.shareID, d.chainCodes, d.ks, d.pubXj, none, [], []⟩
      (ascii "EdDSAPub", cpointJson d.eddsaPub) =
      some ⟨d.privXi, d.shareID, d.chainCodes, d.ks, d.pubXj, d.eddsaPub, [], []⟩ := by
    unfold readFieldAny; simp only [n6]
    rw [if_neg (by decide), if_neg (by decide), if_neg (by decide), if_neg (by decide), if_neg (by decide), if_pos trivial,
      readCPoint_json _ h.2]
    rfl
  have f7 : readFieldAny ⟨d.privXi, d.shareID, d.chainCodes, d.ks, d.pubXj, d.eddsaPub, [], []⟩ (ascii "PaillierPKs", .arr (d.paillierPKs.map paillierJson)) =
      some ⟨d.privXi, d.shareID, d.chainCodes, d.ks, d.pubXj, d.eddsaPub, d.paillierPKs, []⟩ := by
    unfold readFieldAny; simp only [n7]
    rw [if_neg (by decide), if_neg (by decide), if_neg (by decide), if_neg (by decide), if_neg (by decide), if_neg (by decide),
      if_pos trivial, readList_map _ _ _ fun a _ => readPaillier_json a]
    rfl
  have f8 : readFieldAny ⟨d.privXi, d.shareID, d.chainCodes, d.ks, d.pubXj, d.eddsaPub, d.paillierPKs, []⟩ (ascii "RingPedersenPKs", .arr (d.ringPedersenPKs.map pedJson)) =
      some d := by
    unfold readFieldAny; simp only [n8]
    rw [if_neg (by decide), if_neg (by decide), if_neg (by decide), if_neg (by decide), if_neg (by decide), if_neg (by decide),
      if_neg (by decide), if_pos trivial, readList_map _ _ _ fun a _ => readPed_json a]
    rfl
  simp only [List.foldlM_cons, List.foldlM_nil, f1, f2, f3, f4, f5, f6, f7, f8, Option.bind_eq_bind, Option.bind_some, Option.pure_def]


theorem readCPoint_on {v : Json} {o : Option CPoint} (h : readCPoint v = some o) : ∀ q, o = some q → q.c.curve.isOnCurve q.p.x q.p.y = true := by
  unfold readCPoint at h
  split at h
  · cases h; intro p hp; cases hp
  · split at h
    · cases h
    · split at h
      · cases h
      · split at h
        · split at h
          · next hon => cases h; rintro p hp; cases hp; exact hon
          · cases h
        · cases h
  · cases h

theorem readFieldAny_on {d d' : SaveAny} {m : Bytes × Json} (h : readFieldAny d m = some d') (hd : spec.OnTheirCurves d) : spec.OnTheirCurves d' := by
  unfold readFieldAny at h
  simp only at h
  have keep : ∀ {α : Type} (o : Option α) (f : α → SaveAny), o.map f = some d' →
      (∀ a, (f a).pubXj = d.pubXj ∧ (f a).eddsaPub = d.eddsaPub) → spec.OnTheirCurves d' := by
    intro α o f ho hf
    obtain ⟨a, -, rfl⟩ := Option.map_eq_some_iff.mp ho
    unfold spec.OnTheirCurves
    rw [(hf a).1, (hf a).2]
    exact hd
  split at h
  · exact keep _ _ h fun _ => ⟨rfl, rfl⟩
  split at h
  · exact keep _ _ h fun _ => ⟨rfl, rfl⟩
  split at h
  · exact keep _ _ h fun _ => ⟨rfl, rfl⟩
  split at h
  · exact keep _ _ h fun _ => ⟨rfl, rfl⟩
  split at h
  · obtain ⟨l, hl, rfl⟩ := Option.map_eq_some_iff.mp h
    refine ⟨?_, hd.2⟩
    intro p hp
    unfold readList at hl
    split at hl
    · cases hl; cases hp
    · next vs =>
      obtain ⟨v, -, hv⟩ := mapM_mem _ _ _ hl _ hp
      exact readCPoint_on hv p rfl
    · cases hl
  split at h
  · obtain ⟨o, ho, rfl⟩ := Option.map_eq_some_iff.mp h
    exact ⟨hd.1, fun p hp => readCPoint_on ho p hp⟩
  split at h
  · exact keep _ _ h fun _ => ⟨rfl, rfl⟩
  split at h
  · exact keep _ _ h fun _ => ⟨rfl, rfl⟩
  · cases h; exact hd

theorem foldlM_readFieldAny : ∀ (l : List (Bytes × Json)) (d d' : SaveAny), l.foldlM readFieldAny d = some d' → spec.OnTheirCurves d → spec.OnTheirCurves d'
  | [], d, d', h, hd => by cases h; exact hd
  | m :: l, d, d', h, hd => by
    rw [List.foldlM_cons] at h
    cases hm : readFieldAny d m with
    | none => rw [hm] at h; cases h
    | some d1 => rw [hm] at h; exact foldlM_readFieldAny l d1 d' h (readFieldAny_on hm hd)

/-- C76. Whatever bytes are given as key data, every public key share and the group key of the record read from them are on the
curve they name. -/
theorem C76_any_points_on_curve (b : Bytes) (d : SaveAny) (h : unmarshalAny b = some d) : spec.OnTheirCurves d := by
  unfold unmarshalAny at h
  have h0 : spec.OnTheirCurves ⟨none, none, [], [], [], none, [], []⟩ := ⟨fun p hp => absurd hp List.not_mem_nil, fun p hp => by cases hp⟩
  split at h
  · cases h; exact h0
  · exact foldlM_readFieldAny _ _ _ h h0
  · cases h

theorem readCPoint_lift {v : Json} {o : Option ECPoint} (h : readPoint v = some o) : readCPoint v = some (o.map (CPoint.mk .ed25519)) := by
  unfold readPoint at h
  unfold readCPoint
  split at h
  · cases h; rfl
  · simp only
    split at h
    · cases h
    · next a ha =>
      rw [ha]
      simp only
      split at h
      · next hc =>
        have : (if a.curve = [] then some CurveId.ed25519 else curveByName a.curve) = some .ed25519 := by
          rcases hc with hc | hc
          · rw [if_pos hc]
          · rw [hc]; decide
        rw [this]
        simp only
        split at h
        · split at h
          · next x y hx hy hon => cases h; rw [hx, hy]; simp only; rw [if_pos (show CurveId.ed25519.curve.isOnCurve x y = true from hon)]; rfl
          · cases h
        · cases h
      · cases h
  · cases h

theorem mapM_lift {α β γ : Type} (f : α → Option β) (g : α → Option γ) (m : β → γ) (h : ∀ a b, f a = some b → g a = some (m b)) :
    ∀ (l : List α) (r : List β), l.mapM f = some r → l.mapM g = some (r.map m)
  | [], r, hr => by cases hr; rfl
  | a :: l, r, hr => by
    rw [List.mapM_cons] at hr ⊢
    cases ha : f a with
    | none => rw [ha] at hr; cases hr
    | some b =>
      cases hl : l.mapM f with
      | none => rw [ha, hl] at hr; cases hr
      | some m' =>
        rw [ha, hl] at hr
        cases hr
        rw [h a b ha, mapM_lift f g m h l m' hl]
        rfl

theorem readField_lift {d d' : Keygen.SaveData} {m : Bytes × Json} (h : readField d m = some d') :
    readFieldAny (spec.lift d) m = some (spec.lift d') := by
  unfold readField at h
  unfold readFieldAny
  simp only at h ⊢
  iterate 4
    split at h
    · next hc => rw [if_pos hc]; obtain ⟨o, ho, rfl⟩ := Option.map_eq_some_iff.mp h; rw [ho]; rfl
    rename_i hc; rw [if_neg hc]
  split at h
  · next hc =>
    rw [if_pos hc]
    obtain ⟨o, ho, rfl⟩ := Option.map_eq_some_iff.mp h
    have : readList readCPoint m.2 = some (o.map (Option.map (CPoint.mk .ed25519))) := by
      unfold readList at ho ⊢
      split at ho
      · cases ho; rfl
      · exact mapM_lift _ _ _ (fun a b => readCPoint_lift) _ _ ho
      · cases ho
    rw [this]; rfl
  rename_i hc; rw [if_neg hc]
  split at h
  · next hc => rw [if_pos hc]; obtain ⟨o, ho, rfl⟩ := Option.map_eq_some_iff.mp h; rw [readCPoint_lift ho]; rfl
  rename_i hc; rw [if_neg hc]
  iterate 2
    split at h
    · next hc => rw [if_pos hc]; obtain ⟨o, ho, rfl⟩ := Option.map_eq_some_iff.mp h; rw [ho]; rfl
    rename_i hc; rw [if_neg hc]
  cases h; rfl

theorem foldlM_lift : ∀ (l : List (Bytes × Json)) (d d' : Keygen.SaveData), l.foldlM readField d = some d' →
    l.foldlM readFieldAny (spec.lift d) = some (spec.lift d')
  | [], d, d', h => by cases h; rfl
  | m :: l, d, d', h => by
    rw [List.foldlM_cons] at h ⊢
    cases hm : readField d m with
    | none => rw [hm] at h; cases h
    | some d1 => rw [hm] at h; rw [readField_lift hm]; exact foldlM_lift l d1 d' h

/-- C76. The one-curve reader of the other theorems is this reader where it accepts: same text, same record. -/
theorem C76_any_same (b : Bytes) (d : Keygen.SaveData) (h : unmarshal b = some d) : unmarshalAny b = some (spec.lift d) := by
  unfold unmarshal at h
  unfold unmarshalAny
  split at h
  · next hp => rw [hp]; cases h; rfl
  · next l hp => rw [hp]; exact foldlM_lift l _ _ h
  · cases h

/-- C76, deviation. Key data whose group key is a point of secp256k1 is accepted by the reader. -/
theorem C76_foreign_curve : ∃ (b : Bytes) (d : SaveAny), unmarshalAny b = some d ∧ ∃ q, d.eddsaPub = some q ∧ q.c = .secp256k1 :=
  ⟨_, _, C76_any_round_trip ⟨none, none, [], [], [], some ⟨.secp256k1, ⟨Secp.s256.Gx, Secp.s256.Gy⟩⟩, [], []⟩
    ⟨fun _ h => absurd h List.not_mem_nil, fun q h => by cases h; show Secp.s256.isOnCurve _ _ = true; decide +kernel⟩, _, rfl, rfl⟩

end Tss.SaveJson
