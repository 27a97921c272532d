import Verif.Props.RangeProofs
import Verif.Props.AliceUtils
/-
C36/C39: what the challenges of the two range proofs bind.
-/
namespace Tss.RangeProofs
open Tss Text Alice

theorem intBytes_inj_nonneg {a b : ℤ} (ha : 0 ≤ a) (hb : 0 ≤ b) (h : intBytes a = intBytes b) : a = b := by
  have := congrArg beNat h
  rw [beNat_intBytes, beNat_intBytes] at this
  omega

/-- C36: the hash the encryption-range challenge is expanded from binds the session context, the ciphertext, the
prover's modulus, the verifier's ring-Pedersen parameters and the whole first message: equal digests of different
inputs come from two different encodings of these inputs with one BLAKE2b digest. -/
theorem C36_enc_challenge_binds (Hb : Bytes → Bytes) (cfg : ProofConfig) (salt salt' ssid ssid' : Bytes)
    (K n N s t S A C K' n' N' s' t' S' A' C' : ℕ)
    (h1 : SizedMsgs salt (encParts cfg ssid K n ((N : ℤ), (s : ℤ), (t : ℤ)) S A C))
    (h2 : SizedMsgs salt' (encParts cfg ssid' K' n' ((N' : ℤ), (s' : ℤ), (t' : ℤ)) S' A' C'))
    (h : HashProtos Hb salt (encParts cfg ssid K n ((N : ℤ), (s : ℤ), (t : ℤ)) S A C) =
      HashProtos Hb salt' (encParts cfg ssid' K' n' ((N' : ℤ), (s' : ℤ), (t' : ℤ)) S' A' C')) :
    (salt = salt' ∧ ssid = ssid' ∧ K = K' ∧ n = n' ∧ N = N' ∧ s = s' ∧ t = t' ∧ S = S' ∧ A = A' ∧ C = C') ∨
      (hashInput salt (encParts cfg ssid K n ((N : ℤ), (s : ℤ), (t : ℤ)) S A C) ≠ hashInput salt' (encParts cfg ssid' K' n' ((N' : ℤ), (s' : ℤ), (t' : ℤ)) S' A' C') ∧
        Hb (hashInput salt (encParts cfg ssid K n ((N : ℤ), (s : ℤ), (t : ℤ)) S A C)) =
          Hb (hashInput salt' (encParts cfg ssid' K' n' ((N' : ℤ), (s' : ℤ), (t' : ℤ)) S' A' C'))) := by
  rcases C65_hashProtos_binds Hb _ _ _ _ h1 h2 h with ⟨e1, e2⟩ | hc
  · refine .inl ?_
    have key : ∀ {a b : ℕ}, intBytes (a : ℤ) = intBytes (b : ℤ) → a = b := fun h => by
      have := intBytes_inj_nonneg (Int.natCast_nonneg _) (Int.natCast_nonneg _) h
      omega
    simp only [encParts, List.cons.injEq, true_and, and_true] at e2
    obtain ⟨g0, g1, g2, g3, g4, g5, g6, g7, g8⟩ := e2
    exact ⟨e1, g0, key g1, key g2, key g3, key g4, key g5, key g6, key g7, key g8⟩
  · exact .inr hc

/-- C39: the log* challenge binds the session context, the prover's modulus, the verifier's modulus, the ciphertext,
the first message and the y-coordinates of the three points (not the x-coordinates, and not the ring-Pedersen bases
`s`, `t`, see `C39_log_challenge_ignores_bases`). -/
theorem C39_log_challenge_binds (Hb : Bytes → Bytes) (cfg : ProofConfig) (salt salt' ssid ssid' : Bytes)
    (n N C S A D n' N' C' S' A' D' gx gy xx xy yx yy gx' gy' xx' xy' yx' yy' : ℕ) (s t s' t' : ℤ)
    (h1 : SizedMsgs salt (logParts cfg ssid n ((N : ℤ), s, t) C S A D ⟨gx, gy⟩ ⟨xx, xy⟩ ⟨yx, yy⟩))
    (h2 : SizedMsgs salt' (logParts cfg ssid' n' ((N' : ℤ), s', t') C' S' A' D' ⟨gx', gy'⟩ ⟨xx', xy'⟩ ⟨yx', yy'⟩))
    (h : HashProtos Hb salt (logParts cfg ssid n ((N : ℤ), s, t) C S A D ⟨gx, gy⟩ ⟨xx, xy⟩ ⟨yx, yy⟩) =
      HashProtos Hb salt' (logParts cfg ssid' n' ((N' : ℤ), s', t') C' S' A' D' ⟨gx', gy'⟩ ⟨xx', xy'⟩ ⟨yx', yy'⟩)) :
    (salt = salt' ∧ ssid = ssid' ∧ n = n' ∧ N = N' ∧ C = C' ∧ S = S' ∧ A = A' ∧ D = D' ∧ gy = gy' ∧ xy = xy' ∧
      yy = yy') ∨
      (hashInput salt (logParts cfg ssid n ((N : ℤ), s, t) C S A D ⟨gx, gy⟩ ⟨xx, xy⟩ ⟨yx, yy⟩) ≠
          hashInput salt' (logParts cfg ssid' n' ((N' : ℤ), s', t') C' S' A' D' ⟨gx', gy'⟩ ⟨xx', xy'⟩ ⟨yx', yy'⟩) ∧
        Hb (hashInput salt (logParts cfg ssid n ((N : ℤ), s, t) C S A D ⟨gx, gy⟩ ⟨xx, xy⟩ ⟨yx, yy⟩)) =
          Hb (hashInput salt' (logParts cfg ssid' n' ((N' : ℤ), s', t') C' S' A' D' ⟨gx', gy'⟩ ⟨xx', xy'⟩ ⟨yx', yy'⟩))) := by
  rcases C65_hashProtos_binds Hb _ _ _ _ h1 h2 h with ⟨e1, e2⟩ | hc
  · refine .inl ?_
    have key : ∀ {a b : ℕ}, intBytes (a : ℤ) = intBytes (b : ℤ) → a = b := fun h => by
      have := intBytes_inj_nonneg (Int.natCast_nonneg _) (Int.natCast_nonneg _) h
      omega
    simp only [logParts, List.cons.injEq, true_and, and_true] at e2
    obtain ⟨g0, g1, g2, g3, g4, g5, g6, g7, g8, g9⟩ := e2
    exact ⟨e1, g0, key g1, key g2, key g3, key g4, key g5, key g6, key g7, key g8, key g9⟩
  · exact .inr hc

/-- C39: the ring-Pedersen bases are not hashed either: proofs for different bases under one modulus have the same
challenge. -/
theorem C39_log_challenge_ignores_bases (Hb : Bytes → Bytes) (cfg : ProofConfig) (ssid salt : Bytes)
    (n N s t s' t' C S A D : ℤ) (G X Y : ECPoint) :
    challenge Hb cfg.curveN salt (logParts cfg ssid n (N, s, t) C S A D G X Y) =
      challenge Hb cfg.curveN salt (logParts cfg ssid n (N, s', t') C S A D G X Y) := rfl

/-- Non-vacuity: the size hypotheses are met by concrete data. -/
example : SizedMsgs [7] (encParts (NewProofConfig 11) [1, 2] 5 15 ((21 : ℤ), (2 : ℤ), (4 : ℤ)) 8 3 2) :=
  ⟨by decide, by decide +kernel⟩

end Tss.RangeProofs
