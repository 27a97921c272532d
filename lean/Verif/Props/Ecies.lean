import Verif.Model.Ecies
import Verif.Props.Ecdh
/-
C88: encryption to a public key.
-/
namespace Tss.Ecies
open Tss Tss.Secp Tss.Secp.spec

namespace spec

/-- What is assumed of the primitives: output sizes, and that AES decryption undoes AES encryption block by block. -/
structure Sound (E : Env) : Prop where
  sha : ∀ m, (E.sha512 m).length = 64
  mac : ∀ k m, (E.mac k m).length = 32
  encLen : ∀ k m, m.length = 16 → (E.enc k m).length = 16
  decLen : ∀ k m, m.length = 16 → (E.dec k m).length = 16
  dec_enc : ∀ k m, m.length = 16 → E.dec k (E.enc k m) = m

/-- The encryption key and the MAC key of a session: the halves of SHA-512 of the shared secret. -/
def keyE (E : Env) (secret : Bytes) : Bytes := (E.sha512 secret).take 32
@[inherit_doc keyE] def keyM (E : Env) (secret : Bytes) : Bytes := (E.sha512 secret).drop 32

/-- The authenticated part of a ciphertext: vector, curve number 714, coordinates with their lengths, CBC blocks. -/
def body (iv X Y ct : Bytes) : Bytes := iv ++ [0x02, 0xCA, 0x00, 0x20] ++ X ++ [0x00, 0x20] ++ Y ++ ct

end spec
open spec

theorem xorB_length {a b : Bytes} (h : a.length = b.length) : (xorB a b).length = a.length := by
  unfold xorB; rw [List.length_zipWith]; omega

theorem xorB_cancel : ∀ {a b : Bytes}, a.length = b.length → xorB a (xorB a b) = b
  | [], [], _ => rfl
  | [], _ :: _, h => by simp at h
  | _ :: _, [], h => by simp at h
  | x :: a, y :: b, h => by
    have ih := xorB_cancel (a := a) (b := b) (by simpa using h)
    unfold xorB at ih ⊢
    simp only [List.zipWith_cons_cons]
    rw [ih, ← UInt8.xor_assoc, UInt8.xor_self, UInt8.zero_xor]

theorem cbcEnc_length {e : Bytes → Bytes} (he : ∀ m : Bytes, m.length = 16 → (e m).length = 16) : ∀ (n : Nat) (iv m : Bytes),
    iv.length = 16 → m.length = 16 * n → (cbcEnc e n iv m).length = 16 * n
  | 0, _, _, _, _ => rfl
  | n + 1, iv, m, hi, hm => by
    unfold cbcEnc
    simp only
    have hc : (e (xorB iv (m.take 16))).length = 16 := he _ (by rw [xorB_length (by rw [List.length_take]; omega)]; exact hi)
    rw [List.length_append, hc, cbcEnc_length he n _ _ hc (by rw [List.length_drop]; omega)]
    omega

/-- CBC decryption undoes CBC encryption. -/
theorem cbc_round_trip {e d : Bytes → Bytes} (he : ∀ m : Bytes, m.length = 16 → (e m).length = 16)
    (hd : ∀ m : Bytes, m.length = 16 → d (e m) = m) : ∀ (n : Nat) (iv m : Bytes), iv.length = 16 → m.length = 16 * n →
    cbcDec d n iv (cbcEnc e n iv m) = m
  | 0, _, m, _, hm => by
    have : m = [] := List.length_eq_zero_iff.1 (by omega)
    rw [this]; rfl
  | n + 1, iv, m, hi, hm => by
    have ht : (m.take 16).length = 16 := by rw [List.length_take]; omega
    have hx : (xorB iv (m.take 16)).length = 16 := by rw [xorB_length (by omega)]; exact hi
    have hc := he _ hx
    unfold cbcEnc cbcDec
    simp only
    have t1 : (e (xorB iv (m.take 16)) ++ cbcEnc e n (e (xorB iv (m.take 16))) (m.drop 16)).take 16 = e (xorB iv (m.take 16)) := by
      rw [List.take_append_of_le_length (by omega), List.take_of_length_le (by omega)]
    have t2 : (e (xorB iv (m.take 16)) ++ cbcEnc e n (e (xorB iv (m.take 16))) (m.drop 16)).drop 16 =
        cbcEnc e n (e (xorB iv (m.take 16))) (m.drop 16) := by
      generalize e (xorB iv (m.take 16)) = c at hc
      rw [← hc, List.drop_left]
    rw [t1, t2, hd _ hx, xorB_cancel (by omega), cbc_round_trip he hd n _ _ hc (by rw [List.length_drop]; omega),
      List.take_append_drop]

theorem cbcDec_length {d : Bytes → Bytes} (hd : ∀ m : Bytes, m.length = 16 → (d m).length = 16) : ∀ (n : Nat) (iv m : Bytes),
    iv.length = 16 → m.length = 16 * n → (cbcDec d n iv m).length = 16 * n
  | 0, _, _, _, _ => rfl
  | n + 1, iv, m, hi, hm => by
    unfold cbcDec
    have ht : (m.take 16).length = 16 := by rw [List.length_take]; omega
    rw [List.length_append, xorB_length (by rw [hd _ ht]; exact hi), cbcDec_length hd n _ _ ht (by rw [List.length_drop]; omega)]
    omega

theorem padding_length (m : Bytes) : (addPadding m).length = 16 * (m.length / 16 + 1) := by
  unfold addPadding
  simp only [List.length_append, List.length_replicate]
  omega

theorem removePadding_ok (p m : Bytes) : removePadding p = .ok m ↔ 16 ≤ p.length ∧ ∃ q : UInt8, p.getLast? = some q ∧ q.toNat ≤ 16 ∧
    m = p.take (p.length - q.toNat) := by
  unfold removePadding
  by_cases h0 : p.length = 0
  · rw [if_pos h0]
    constructor
    · intro h; cases h
    · rintro ⟨h, -⟩; omega
  rw [if_neg h0]
  simp only [rbind_ok, byteAt_ok, ite_err_ok, sliceOf_ok]
  have hl : p[p.length - 1]? = p.getLast? := by rw [List.getLast?_eq_getElem?]
  rw [hl]
  constructor
  · rintro ⟨q, hq, hc, -, hm⟩
    rw [List.drop_zero] at hm
    exact ⟨by omega, q, hq, by omega, hm⟩
  · rintro ⟨h16, q, hq, hle, hm⟩
    exact ⟨q, hq, by omega, ⟨by omega, by omega⟩, by rw [List.drop_zero]; exact hm⟩

theorem removePadding_panic (p : Bytes) (h : p.length ≠ 0) : removePadding p ≠ .panic := by
  unfold removePadding
  rw [if_neg h]
  intro hp
  simp only [rbind_panic, byteAt_panic, byteAt_ok, ite_err_panic, sliceOf_panic] at hp
  rcases hp with hp | ⟨q, -, -, hp⟩
  · omega
  · exact hp ⟨by omega, by omega⟩

/-- C88: removing undoes adding the padding, for every message length. -/
theorem C88_padding (m : Bytes) : removePadding (addPadding m) = .ok m := by
  rw [removePadding_ok]
  have hl := padding_length m
  refine ⟨by omega, UInt8.ofNat (16 - m.length % 16), ?_, ?_, ?_⟩
  · unfold addPadding
    simp only
    rw [List.getLast?_append, List.getLast?_replicate, if_neg (by omega)]
    rfl
  · rw [u8_len (by omega)]; omega
  · rw [u8_len (by omega)]
    have : (addPadding m).length - (16 - m.length % 16) = m.length := by rw [hl]; omega
    rw [this]
    unfold addPadding
    simp only
    rw [List.take_left]

/-- C88, deviation: only the last padding byte is looked at, and 0 is allowed: any block-sized text that ends in a byte q ≤ 16 is taken
as padded by q bytes, whatever the other q - 1 are. -/
theorem C88_padding_lax (m junk : Bytes) (q : UInt8) (hq : 1 ≤ q.toNat) (hq' : q.toNat ≤ 16) (hj : junk.length = q.toNat - 1)
    (hm : 16 ≤ m.length + q.toNat) : removePadding (m ++ junk ++ [q]) = .ok m := by
  rw [removePadding_ok]
  refine ⟨by simp; omega, q, by simp, hq', ?_⟩
  have : (m ++ junk ++ [q]).length - q.toNat = m.length := by simp; omega
  rw [this, List.append_assoc, List.take_left]

theorem slice_mid {a b c : Bytes} {i j : Nat} (hi : a.length = i) (hj : a.length + b.length = j) :
    (sliceOf (a ++ (b ++ c)) i j : Res ε Bytes) = .ok b := by
  rw [sliceOf_ok]
  refine ⟨⟨by omega, by simp; omega⟩, ?_⟩
  rw [← List.append_assoc, ← hj, ← List.length_append, List.take_left, ← hi, List.drop_left]

theorem split_at {b : Bytes} {i : Nat} (h : i ≤ b.length) : ∃ a c, b = a ++ c ∧ a.length = i :=
  ⟨b.take i, b.drop i, (List.take_append_drop i b).symm, by rw [List.length_take]; omega⟩

/-- `Decrypt` on a string cut into its fields. -/
theorem decrypt_form (E : Env) (D : Int) (iv c l X l' Y ct tag : Bytes) (h1 : iv.length = 16) (h2 : c.length = 2) (h3 : l.length = 2)
    (h4 : X.length = 32) (h5 : l'.length = 2) (h6 : Y.length = 32) (h7 : 16 ≤ ct.length) (h8 : tag.length = 32) :
    decrypt E D (iv ++ (c ++ (l ++ (X ++ (l' ++ (Y ++ (ct ++ tag))))))) =
      if c ≠ [0x02, 0xCA] then .err .curve else if l ≠ [0x00, 0x20] then .err .xLength else
      if l' ≠ [0x00, 0x20] then .err .yLength else
      match parsePubKey (0x04 :: (X ++ Y)) with
      | .error e => .err (.pubkey e)
      | .ok A => if ct.length % 16 ≠ 0 then .err .padding else
        if tag ≠ E.mac (keyM E (sharedSecret D A)) (iv ++ (c ++ (l ++ (X ++ (l' ++ (Y ++ ct)))))) then .err .mac else
        removePadding (cbcDec (E.dec (keyE E (sharedSecret D A))) (ct.length / 16) iv ct) := by
  generalize hb : iv ++ (c ++ (l ++ (X ++ (l' ++ (Y ++ (ct ++ tag)))))) = b
  have hl : b.length = 118 + ct.length := by rw [← hb]; simp; omega
  have s0 : (sliceOf b 0 16 : Res Err Bytes) = .ok iv := by
    rw [← hb, ← List.nil_append (iv ++ _)]; exact slice_mid rfl (by simpa using h1)
  have s1 : (sliceOf b 16 18 : Res Err Bytes) = .ok c := by rw [← hb]; exact slice_mid h1 (by omega)
  have s2 : (sliceOf b 18 20 : Res Err Bytes) = .ok l := by
    rw [← hb, ← List.append_assoc iv]; exact slice_mid (by simp; omega) (by simp; omega)
  have s3 : (sliceOf b 20 52 : Res Err Bytes) = .ok X := by
    rw [← hb, ← List.append_assoc iv, ← List.append_assoc _ l]; exact slice_mid (by simp; omega) (by simp; omega)
  have s4 : (sliceOf b 52 54 : Res Err Bytes) = .ok l' := by
    rw [← hb, ← List.append_assoc iv, ← List.append_assoc _ l, ← List.append_assoc _ X]
    exact slice_mid (by simp; omega) (by simp; omega)
  have s5 : (sliceOf b 54 86 : Res Err Bytes) = .ok Y := by
    rw [← hb, ← List.append_assoc iv, ← List.append_assoc _ l, ← List.append_assoc _ X, ← List.append_assoc _ l']
    exact slice_mid (by simp; omega) (by simp; omega)
  have s6 : (sliceOf b 86 (b.length - 32) : Res Err Bytes) = .ok ct := by
    rw [hl, ← hb, ← List.append_assoc iv, ← List.append_assoc _ l, ← List.append_assoc _ X, ← List.append_assoc _ l',
      ← List.append_assoc _ Y]
    exact slice_mid (by simp; omega) (by simp; omega)
  have s7 : (sliceOf b (b.length - 32) b.length : Res Err Bytes) = .ok tag := by
    have : b = (iv ++ (c ++ (l ++ (X ++ (l' ++ (Y ++ ct)))))) ++ (tag ++ []) := by rw [← hb]; simp
    rw [hl]
    conv_lhs => rw [this]
    exact slice_mid (by simp; omega) (by simp; omega)
  have s8 : (sliceOf b 0 (b.length - 32) : Res Err Bytes) = .ok (iv ++ (c ++ (l ++ (X ++ (l' ++ (Y ++ ct)))))) := by
    have : b = [] ++ ((iv ++ (c ++ (l ++ (X ++ (l' ++ (Y ++ ct)))))) ++ tag) := by rw [← hb]; simp
    rw [hl]
    conv_lhs => rw [this]
    exact slice_mid rfl (by simp; omega)
  have hr : ∀ {α β : Type} (a : α) (f : α → Res Err β), (Res.ok a >>= f) = f a := fun _ _ => rfl
  unfold decrypt
  rw [if_neg (by omega), s0, hr, s1, hr]
  by_cases q1 : c ≠ [0x02, 0xCA]
  · rw [if_pos q1, if_pos q1]
  rw [if_neg q1, if_neg q1, s2, hr]
  by_cases q2 : l ≠ [0x00, 0x20]
  · rw [if_pos q2, if_pos q2]
  rw [if_neg q2, if_neg q2, s3, hr, s4, hr]
  by_cases q3 : l' ≠ [0x00, 0x20]
  · rw [if_pos q3, if_pos q3]
  rw [if_neg q3, if_neg q3, s5, hr]
  cases parsePubKey (0x04 :: (X ++ Y)) with
  | error e => rfl
  | ok A =>
    simp only
    have hm : ((b.length : Int) - 16 - 86 - 32).tmod 16 ≠ 0 ↔ ct.length % 16 ≠ 0 := by
      rw [hl, Int.tmod_eq_emod_of_nonneg (by omega)]; omega
    by_cases q4 : ct.length % 16 ≠ 0
    · rw [if_pos q4, if_pos (hm.2 q4)]
    rw [if_neg q4, if_neg (fun h => q4 (hm.1 h)), s7, hr, s8, hr, s6, hr, if_neg q4]
    rfl

theorem decrypt_short (E : Env) (D : Int) (b : Bytes) (h : b.length < 134) : decrypt E D b = .err .tooShort := by
  unfold decrypt; rw [if_pos h]

theorem cut_up (b : Bytes) (h : 134 ≤ b.length) : ∃ iv c l X l' Y ct tag : Bytes,
    b = iv ++ (c ++ (l ++ (X ++ (l' ++ (Y ++ (ct ++ tag)))))) ∧ iv.length = 16 ∧ c.length = 2 ∧ l.length = 2 ∧ X.length = 32 ∧
    l'.length = 2 ∧ Y.length = 32 ∧ 16 ≤ ct.length ∧ tag.length = 32 := by
  obtain ⟨iv, b, rfl, h1⟩ := split_at (b := b) (i := 16) (by omega)
  rw [List.length_append] at h
  obtain ⟨c, b, rfl, h2⟩ := split_at (b := b) (i := 2) (by omega)
  rw [List.length_append] at h
  obtain ⟨l, b, rfl, h3⟩ := split_at (b := b) (i := 2) (by omega)
  rw [List.length_append] at h
  obtain ⟨X, b, rfl, h4⟩ := split_at (b := b) (i := 32) (by omega)
  rw [List.length_append] at h
  obtain ⟨l', b, rfl, h5⟩ := split_at (b := b) (i := 2) (by omega)
  rw [List.length_append] at h
  obtain ⟨Y, b, rfl, h6⟩ := split_at (b := b) (i := 32) (by omega)
  rw [List.length_append] at h
  obtain ⟨ct, tag, rfl, h7⟩ := split_at (b := b) (i := b.length - 32) (by omega)
  rw [List.length_append] at h h7
  exact ⟨iv, c, l, X, l', Y, ct, tag, rfl, h1, h2, h3, h4, h5, h6, by omega, by omega⟩

theorem body_eq (iv X Y ct tag : Bytes) : body iv X Y ct ++ tag =
    iv ++ ([0x02, 0xCA] ++ ([0x00, 0x20] ++ (X ++ ([0x00, 0x20] ++ (Y ++ (ct ++ tag)))))) := by
  unfold body; simp

theorem body_eq' (iv X Y ct : Bytes) : body iv X Y ct =
    iv ++ ([0x02, 0xCA] ++ ([0x00, 0x20] ++ (X ++ ([0x00, 0x20] ++ (Y ++ ct))))) := by
  unfold body; simp

/-- The keys a ciphertext can carry: the points of the curve, but not infinity. -/
theorem parse4 {X Y : Bytes} (hX : X.length = 32) (hY : Y.length = 32) (A : ECPoint) : parsePubKey (0x04 :: (X ++ Y)) = .ok A ↔
    A.x = beNat X ∧ A.y = beNat Y ∧ ∃ Q : Secp256k1.Point, Q ≠ 0 ∧ affine Q = (A.x, A.y) := by
  constructor
  · intro h
    refine ⟨?_, ?_, C75_on_curve _ A h (.inl (by simp; omega))⟩
    all_goals
      rcases (C75_parse_iff _ A).1 h with ⟨f, X', e, hX', -⟩ | ⟨f, X', Y', e, hX', hY', -, hx, hy, -⟩
      · injection e with e1 e2
        have := congrArg List.length e2
        rw [List.length_append] at this; omega
      · injection e with e1 e2
        obtain ⟨rfl, rfl⟩ := List.append_inj e2 (by omega)
        assumption
  · rintro ⟨hx, hy, Q, hQ, hA⟩
    have := (C75_round_trip Q hQ A hA).1
    unfold serializeUncompressed at this
    rw [hx, hy, padded_of hX, padded_of hY] at this
    exact this

/-- C88: exactly what `Decrypt` accepts and what it returns: a well-formed body whose point is on the curve (with reduced
coordinates), followed by the MAC of the body under the key agreed with that point; the result is the CBC decryption without as many
bytes as its last byte says, at most 16. -/
theorem C88_decrypt_iff (E : Env) (D : Int) (b m : Bytes) :
    decrypt E D b = .ok m ↔ ∃ (iv X Y ct tag : Bytes) (A : ECPoint), b = body iv X Y ct ++ tag ∧ iv.length = 16 ∧ X.length = 32 ∧
      Y.length = 32 ∧ 16 ≤ ct.length ∧ ct.length % 16 = 0 ∧ tag.length = 32 ∧ A.x = beNat X ∧ A.y = beNat Y ∧
      (∃ Q : Secp256k1.Point, Q ≠ 0 ∧ affine Q = (A.x, A.y)) ∧
      tag = E.mac (keyM E (sharedSecret D A)) (body iv X Y ct) ∧
      removePadding (cbcDec (E.dec (keyE E (sharedSecret D A))) (ct.length / 16) iv ct) = .ok m := by
  constructor
  · intro h
    by_cases hs : b.length < 134
    · rw [decrypt_short E D b hs] at h; cases h
    obtain ⟨iv, c, l, X, l', Y, ct, tag, rfl, h1, h2, h3, h4, h5, h6, h7, h8⟩ := cut_up b (by omega)
    rw [decrypt_form E D iv c l X l' Y ct tag h1 h2 h3 h4 h5 h6 h7 h8] at h
    simp only [ite_err_ok, not_not] at h
    obtain ⟨rfl, rfl, rfl, h⟩ := h
    cases hp : parsePubKey (0x04 :: (X ++ Y)) with
    | error e => rw [hp] at h; cases h
    | ok A =>
      rw [hp] at h
      simp only [ite_err_ok, not_not] at h
      obtain ⟨q, t, r⟩ := h
      obtain ⟨hx, hy, hQ⟩ := (parse4 h4 h6 A).1 hp
      exact ⟨iv, X, Y, ct, tag, A, (body_eq ..).symm, h1, h4, h6, h7, q, h8, hx, hy, hQ, by rw [body_eq']; exact t, r⟩
  · rintro ⟨iv, X, Y, ct, tag, A, rfl, h1, h4, h6, h7, q, h8, hx, hy, hQ, t, r⟩
    rw [body_eq, decrypt_form E D iv _ _ X _ Y ct tag h1 rfl rfl h4 rfl h6 h7 h8, if_neg (by simp), if_neg (by simp), if_neg (by simp),
      (parse4 h4 h6 A).2 ⟨hx, hy, hQ⟩]
    simp only
    rw [if_neg (by omega), if_neg (by rw [← body_eq']; exact not_not_intro t), r]

/-- C88: no string, however malformed, makes `Decrypt` panic: it returns a message or an error. -/
theorem C88_never_panics (E : Env) (hE : Sound E) (D : Int) (b : Bytes) : decrypt E D b ≠ .panic := by
  by_cases hs : b.length < 134
  · rw [decrypt_short E D b hs]; intro h; cases h
  obtain ⟨iv, c, l, X, l', Y, ct, tag, rfl, h1, h2, h3, h4, h5, h6, h7, h8⟩ := cut_up b (by omega)
  rw [decrypt_form E D iv c l X l' Y ct tag h1 h2 h3 h4 h5 h6 h7 h8]
  intro h
  simp only [ite_err_panic, not_not] at h
  obtain ⟨-, -, -, h⟩ := h
  cases hp : parsePubKey (0x04 :: (X ++ Y)) with
  | error e => rw [hp] at h; cases h
  | ok A =>
    rw [hp] at h
    simp only [ite_err_panic, not_not] at h
    obtain ⟨q, -, r⟩ := h
    refine removePadding_panic _ ?_ r
    rw [cbcDec_length (fun m hm => hE.decLen _ m hm) _ iv ct h1 (by omega)]
    omega

/-- What `Encrypt` writes: a body and its MAC, the body carrying the ephemeral public key. -/
theorem encrypt_form (E : Env) (d : Int) (hd : 0 ≤ d) (iv m : Bytes) (Q : ECPoint) :
    ∃ (X Y ct : Bytes) , encrypt E d iv Q m = body iv X Y ct ++ E.mac (keyM E (sharedSecret d Q)) (body iv X Y ct) ∧
      X.length = 32 ∧ Y.length = 32 ∧ affine (d • B) = ((beNat X : Int), (beNat Y : Int)) ∧
      ct = cbcEnc (E.enc (keyE E (sharedSecret d Q))) (m.length / 16 + 1) iv (addPadding m) := by
  obtain ⟨⟨x0, x1⟩, y0, y1⟩ := affine_range (d • B)
  have hp := p_lt
  obtain ⟨lx, ex⟩ := padded_int x0 (by omega)
  obtain ⟨ly, ey⟩ := padded_int y0 (by omega)
  refine ⟨padded 32 (intBytes (affine (d • B)).1), padded 32 (intBytes (affine (d • B)).2), _, ?_, lx, ly, by rw [ex, ey], rfl⟩
  have hs : s256.scalarBaseMult (intBytes d) = affine (d • B) := sbm_int hd
  unfold encrypt serializeUncompressed
  simp only
  rw [hs]
  generalize padded 32 (intBytes (affine (d • B)).1) = X at *
  generalize padded 32 (intBytes (affine (d • B)).2) = Y at *
  have t1 : ((4 :: (X ++ Y) : Bytes).take 33).drop 1 = X := by
    change ((X ++ Y).take 32).drop 0 = X
    rw [← lx, List.take_left]; rfl
  have t2 : (4 :: (X ++ Y) : Bytes).drop 33 = Y := by
    change (X ++ Y).drop 32 = Y
    rw [← lx, List.drop_left]
  rw [t1, t2, padding_length, Nat.mul_div_cancel_left _ (by norm_num)]
  rfl

/-- C88: who holds the private key reads what was encrypted to the public key: for every message, every ephemeral secret, every vector
and every private key of whatever size. -/
theorem C88_round_trip (E : Env) (hE : Sound E) (d D : Int) (hd : 1 ≤ d ∧ d < N) (hD : 0 ≤ D) (iv : Bytes) (hiv : iv.length = 16)
    (Q : ECPoint) (hQ : affine (D • B) = (Q.x, Q.y)) (m : Bytes) :
    decrypt E D (encrypt E d iv Q m) = .ok m ∧ (encrypt E d iv Q m).length = 118 + 16 * (m.length / 16 + 1) := by
  obtain ⟨X, Y, ct, e, hX, hY, hA, hct⟩ := encrypt_form E d (by omega) iv m Q
  have hl : ct.length = 16 * (m.length / 16 + 1) := by
    rw [hct]; exact cbcEnc_length (fun m hm => hE.encLen _ m hm) _ iv _ hiv (padding_length m)
  have hs : sharedSecret D ⟨(beNat X : Int), (beNat Y : Int)⟩ = sharedSecret d Q :=
    (C87_ecdh d D (by omega) hD ⟨_, _⟩ Q hA hQ).1.symm
  have hne : d • B ≠ 0 := by
    intro h
    have := (C74_group_order.2.2.2.1 B G_ne_zero d).1 h
    exact absurd (Int.le_of_dvd (by omega) this) (not_le.2 hd.2)
  constructor
  · rw [C88_decrypt_iff]
    refine ⟨iv, X, Y, ct, _, ⟨(beNat X : Int), (beNat Y : Int)⟩, e, hiv, hX, hY, by omega, by omega, hE.mac _ _, rfl, rfl,
      ⟨d • B, hne, hA⟩, by rw [hs], ?_⟩
    rw [hs, hl, Nat.mul_div_cancel_left _ (by norm_num), hct,
      cbc_round_trip (fun m hm => hE.encLen _ m hm) (fun m hm => hE.dec_enc _ m hm) _ iv _ hiv (padding_length m)]
    exact C88_padding m
  · rw [e]
    have := hE.mac (keyM E (sharedSecret d Q)) (body iv X Y ct)
    unfold body at this ⊢
    simp only [List.length_append, List.length_cons, List.length_nil]
    simp only [List.append_assoc] at this ⊢
    omega

/-- C88: a message other than the one encrypted comes out of a string other than the honest one only together with a forged tag: the
string then holds a body B' different from the honest body and the MAC of B', under a key derived from the point in B'. If that point is
the honest one, the key is the honest key. -/
theorem C88_tamper (E : Env) (hE : Sound E) (d D : Int) (hd : 0 ≤ d) (hD : 0 ≤ D) (iv : Bytes) (hiv : iv.length = 16)
    (Q : ECPoint) (hQ : affine (D • B) = (Q.x, Q.y)) (m b m' : Bytes) (hb : b ≠ encrypt E d iv Q m) (hok : decrypt E D b = .ok m') :
    ∃ (body' : Bytes) (A : ECPoint), b = body' ++ E.mac (keyM E (sharedSecret D A)) body' ∧
      body' ≠ (encrypt E d iv Q m).take ((encrypt E d iv Q m).length - 32) ∧
      (affine (d • B) = (A.x, A.y) → sharedSecret D A = sharedSecret d Q) := by
  obtain ⟨X, Y, ct, e, hX, hY, hA, hct⟩ := encrypt_form E d hd iv m Q
  obtain ⟨iv', X', Y', ct', tag, A, rfl, h1, h4, h6, h7, q, h8, hx, hy, hQ', t, r⟩ := (C88_decrypt_iff E D b m').1 hok
  have hsec : affine (d • B) = (A.x, A.y) → sharedSecret D A = sharedSecret d Q := fun h => (C87_ecdh d D hd hD A Q h hQ).1.symm
  refine ⟨body iv' X' Y' ct', A, by rw [← t], ?_, hsec⟩
  have htake : (encrypt E d iv Q m).take ((encrypt E d iv Q m).length - 32) = body iv X Y ct := by
    rw [e]
    have := hE.mac (keyM E (sharedSecret d Q)) (body iv X Y ct)
    rw [List.length_append, this, Nat.add_sub_cancel, List.take_left]
  rw [htake]
  intro hbody
  have hXY : X' = X ∧ Y' = Y := by
    rw [body_eq', body_eq'] at hbody
    obtain ⟨-, hbody⟩ := List.append_inj hbody (by omega)
    obtain ⟨-, hbody⟩ := List.append_inj hbody rfl
    obtain ⟨-, hbody⟩ := List.append_inj hbody rfl
    obtain ⟨e1, hbody⟩ := List.append_inj hbody (by omega)
    obtain ⟨-, hbody⟩ := List.append_inj hbody rfl
    exact ⟨e1, (List.append_inj hbody (by omega)).1⟩
  apply hb
  rw [e, t, hbody, hsec (by rw [hA, hx, hy, hXY.1, hXY.2])]

/-- Primitives that meet the assumptions: AES replaced by the identity, constant hashes. -/
def exEnv : Env := ⟨fun _ => List.replicate 64 7, fun _ _ => List.replicate 32 9, fun _ m => m, fun _ m => m⟩

theorem exSound : Sound exEnv := ⟨fun _ => rfl, fun _ _ => rfl, fun _ _ h => h, fun _ _ h => h, fun _ _ _ => rfl⟩

/-- C88: the hypotheses of `C88_round_trip` and of `C88_tamper` are met: a message of 20 bytes; and, with a MAC that forgets its text,
the encryption of another message is accepted as well. -/
theorem C88_example : ∃ (Q : ECPoint) (b : Bytes), affine ((5 : Int) • B) = (Q.x, Q.y) ∧
    decrypt exEnv 5 (encrypt exEnv 3 (List.replicate 16 0) Q (List.replicate 20 1)) = .ok (List.replicate 20 1) ∧
    (encrypt exEnv 3 (List.replicate 16 0) Q (List.replicate 20 1)).length = 150 ∧
    b ≠ encrypt exEnv 3 (List.replicate 16 0) Q (List.replicate 20 1) ∧ decrypt exEnv 5 b = .ok [1, 2] := by
  obtain ⟨e, l⟩ := C88_round_trip exEnv exSound 3 5 (by decide) (by norm_num) (List.replicate 16 0) rfl
    ⟨(affine ((5 : Int) • B)).1, (affine ((5 : Int) • B)).2⟩ rfl (List.replicate 20 1)
  obtain ⟨e', -⟩ := C88_round_trip exEnv exSound 3 5 (by decide) (by norm_num) (List.replicate 16 0) rfl
    ⟨(affine ((5 : Int) • B)).1, (affine ((5 : Int) • B)).2⟩ rfl [1, 2]
  refine ⟨_, _, rfl, e, l, ?_, e'⟩
  intro h
  rw [h, e] at e'
  injection e' with e'
  exact absurd e' (by decide)

end Tss.Ecies
